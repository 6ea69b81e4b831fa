import Verif.Lemmas.FormatRead
import Verif.Spec.FormatCrash

set_option linter.unusedSectionVars false

/-!
# Lemmas about files left by interrupted calls
-/

namespace Verif.Format

open Verif.Sim (Err SnapMeta)
open Verif.Format.Spec

variable {K : Type}

/-! ## The datasets in a group, at any point -/

/-- The effect writes part of one of the datasets `xs`, or no dataset. -/
def FromItems (xs : List (Item K)) : Eff K → Prop
  | .newData _ p c => ∃ x ∈ xs, x.name = p ∧ x.col = c
  | .setUnits _ p u => ∃ x ∈ xs, x.name = p ∧ x.units = u
  | .setHdep _ p e => ∃ x ∈ xs, x.name = p ∧ x.hdep = e
  | _ => True

/-- The group holds only datasets `xs`, possibly without their attributes. -/
def HoldsSome (xs : List (Item K)) (g : Group K) : Prop :=
  ∀ name D, g.data.get? name = some D → ∃ x ∈ xs, x.name = name ∧ D.data = x.col ∧
    (D.units = none ∨ D.units = some x.units) ∧ (D.hdep = none ∨ D.hdep = some x.hdep)

theorem same_item {xs : List (Item K)} (hnd : (xs.map (·.name)).Nodup) {x y : Item K} (hx : x ∈ xs)
    (hy : y ∈ xs) (h : x.name = y.name) : x = y :=
  List.inj_on_of_nodup_map hnd hx hy h

theorem gapply_holds (xs : List (Item K)) (hnd : (xs.map (·.name)).Nodup) (e : Eff K)
    (he : FromItems xs e) (og : Option (Group K)) (h : ∀ g, og = some g → HoldsSome xs g) :
    ∀ g, gapply og e = some g → HoldsSome xs g := by
  intro g hg
  cases e with
  | delGroup i => cases hg
  | newGroup i =>
    simp only [gapply, Option.some.injEq] at hg
    subst hg
    intro name D hD
    cases hD
  | newCuts i t =>
    simp only [gapply, Option.map_eq_some_iff] at hg
    obtain ⟨g0, h0, rfl⟩ := hg
    exact h g0 h0
  | setInfo i t =>
    simp only [gapply, Option.map_eq_some_iff] at hg
    obtain ⟨g0, h0, rfl⟩ := hg
    exact h g0 h0
  | newData i p c =>
    simp only [gapply, Option.map_eq_some_iff] at hg
    obtain ⟨g0, h0, rfl⟩ := hg
    intro name D hD
    simp only [PyDict.get?_set] at hD
    split at hD
    · rename_i hp
      cases hD
      obtain ⟨x, hx, h1, h2⟩ := he
      exact ⟨x, hx, h1.trans hp, h2.symm, Or.inl rfl, Or.inl rfl⟩
    · exact h g0 h0 name D hD
  | setUnits i p u =>
    simp only [gapply, Option.map_eq_some_iff] at hg
    obtain ⟨g0, h0, hg⟩ := hg
    cases hp : g0.data.get? p with
    | none => rw [hp] at hg; simp only at hg; subst hg; exact h g0 h0
    | some y =>
      rw [hp] at hg
      simp only at hg
      subst hg
      intro name D hD
      simp only [PyDict.get?_set] at hD
      split at hD
      · rename_i hpn
        cases hD
        obtain ⟨x, hx, h1, h2⟩ := he
        obtain ⟨z, hz, z1, z2, z3, z4⟩ := h g0 h0 p y hp
        have := same_item hnd hx hz (h1.trans z1.symm)
        subst this
        exact ⟨x, hx, h1.trans hpn, z2, Or.inr (by rw [h2]), z4⟩
      · exact h g0 h0 name D hD
  | setHdep i p u =>
    simp only [gapply, Option.map_eq_some_iff] at hg
    obtain ⟨g0, h0, hg⟩ := hg
    cases hp : g0.data.get? p with
    | none => rw [hp] at hg; simp only at hg; subst hg; exact h g0 h0
    | some y =>
      rw [hp] at hg
      simp only at hg
      subst hg
      intro name D hD
      simp only [PyDict.get?_set] at hD
      split at hD
      · rename_i hpn
        cases hD
        obtain ⟨x, hx, h1, h2⟩ := he
        obtain ⟨z, hz, z1, z2, z3, z4⟩ := h g0 h0 p y hp
        have := same_item hnd hx hz (h1.trans z1.symm)
        subst this
        exact ⟨x, hx, h1.trans hpn, z2, z3, Or.inr (by rw [h2])⟩
      · exact h g0 h0 name D hD
  | truncate => exact h g hg
  | setMetas l => exact h g hg
  | setNum l => exact h g hg
  | rmRaw l => exact h g hg

theorem applyAll_holds (i : ℕ) (xs : List (Item K)) (hnd : (xs.map (·.name)).Nodup)
    (es : List (Eff K)) (he : ∀ e ∈ es, FromItems xs e ∧ (Eff.At i e ∨ e = .rmRaw i)) :
    ∀ d : Disk K, d.file.isSome → (∀ g, groupOf d i = some g → HoldsSome xs g) →
      ∀ g, groupOf (applyAll d es) i = some g → HoldsSome xs g := by
  induction es with
  | nil => intro d _ h; exact h
  | cons e es ih =>
    intro d hd h
    obtain ⟨h1, h2⟩ := he e List.mem_cons_self
    refine ih (fun x hx => he x (List.mem_cons_of_mem _ hx)) (apply d e) ?_ ?_
    · rcases h2 with h2 | rfl
      · rw [(apply_at d hd i e h2).1.file]; exact hd
      · exact hd
    · rcases h2 with h2 | rfl
      · rw [(apply_at d hd i e h2).2.2]
        exact gapply_holds xs hnd e h1 _ h
      · exact h

theorem writeData_from (i : ℕ) (its : List (Except Err (Item K))) :
    ∀ used : List Name, ∃ xs : List (Item K), (∀ x ∈ xs, .ok x ∈ its ∧ x.name ∉ used) ∧
      (xs.map (·.name)).Nodup ∧ xs.map .ok <+: its ∧ ∀ e ∈ (writeData i used its).1, FromItems xs e := by
  induction its with
  | nil => intro used; exact ⟨[], by simp, by simp, by simp, by simp [writeData]⟩
  | cons it its ih =>
    intro used
    cases it with
    | error e => exact ⟨[], by simp, by simp, by simp, by simp [writeData]⟩
    | ok x =>
      unfold writeData
      by_cases hx : x.name ∈ used
      · exact ⟨[], by simp, by simp, by simp, by simp [hx]⟩
      · obtain ⟨xs, h1, h2, hpre, h3⟩ := ih (x.name :: used)
        refine ⟨x :: xs, ?_, ?_, ?_, ?_⟩
        · intro y hy
          rcases List.mem_cons.1 hy with rfl | hy
          · exact ⟨List.mem_cons_self, hx⟩
          · obtain ⟨a, b⟩ := h1 y hy
            exact ⟨List.mem_cons_of_mem _ a, fun hu => b (List.mem_cons_of_mem _ hu)⟩
        · rw [List.map_cons, List.nodup_cons]
          refine ⟨?_, h2⟩
          intro hm
          obtain ⟨y, hy, hyn⟩ := List.mem_map.1 hm
          exact (h1 y hy).2 (by rw [hyn]; exact List.mem_cons_self)
        · rw [List.map_cons]
          exact (List.prefix_cons_inj _).2 hpre
        · intro e he
          simp only [hx, if_false, List.mem_cons] at he
          rcases he with rfl | rfl | rfl | he
          · exact ⟨x, List.mem_cons_self, rfl, rfl⟩
          · exact ⟨x, List.mem_cons_self, rfl, rfl⟩
          · exact ⟨x, List.mem_cons_self, rfl, rfl⟩
          · have := h3 e he
            cases e with
            | newData j p c => obtain ⟨y, hy, q⟩ := this; exact ⟨y, List.mem_cons_of_mem _ hy, q⟩
            | setUnits j p c => obtain ⟨y, hy, q⟩ := this; exact ⟨y, List.mem_cons_of_mem _ hy, q⟩
            | setHdep j p c => obtain ⟨y, hy, q⟩ := this; exact ⟨y, List.mem_cons_of_mem _ hy, q⟩
            | _ => trivial

/-- The effect writes the table `t`, or no table. -/
def FromCuts (t : List (K × ℕ)) : Eff K → Prop
  | .newCuts _ t' => t' = t
  | _ => True

theorem gapply_cuts (t : List (K × ℕ)) (e : Eff K) (he : FromCuts t e) (og : Option (Group K))
    (h : ∀ g, og = some g → g.cuts = none ∨ g.cuts = some t) :
    ∀ g, gapply og e = some g → g.cuts = none ∨ g.cuts = some t := by
  intro g hg
  cases e with
  | delGroup i => cases hg
  | newGroup i =>
    simp only [gapply, Option.some.injEq] at hg
    subst hg
    exact Or.inl rfl
  | newCuts i t' =>
    simp only [gapply, Option.map_eq_some_iff] at hg
    obtain ⟨g0, h0, rfl⟩ := hg
    have : t' = t := he
    exact Or.inr (by rw [this])
  | setInfo i t' =>
    simp only [gapply, Option.map_eq_some_iff] at hg
    obtain ⟨g0, h0, rfl⟩ := hg
    exact h g0 h0
  | newData i p c =>
    simp only [gapply, Option.map_eq_some_iff] at hg
    obtain ⟨g0, h0, rfl⟩ := hg
    exact h g0 h0
  | setUnits i p u =>
    simp only [gapply, Option.map_eq_some_iff] at hg
    obtain ⟨g0, h0, hg⟩ := hg
    cases hp : g0.data.get? p <;> rw [hp] at hg <;> simp only at hg <;> subst hg <;> exact h g0 h0
  | setHdep i p u =>
    simp only [gapply, Option.map_eq_some_iff] at hg
    obtain ⟨g0, h0, hg⟩ := hg
    cases hp : g0.data.get? p <;> rw [hp] at hg <;> simp only at hg <;> subst hg <;> exact h g0 h0
  | truncate => exact h g hg
  | setMetas l => exact h g hg
  | setNum l => exact h g hg
  | rmRaw l => exact h g hg

theorem applyAll_cuts (i : ℕ) (t : List (K × ℕ)) (es : List (Eff K))
    (he : ∀ e ∈ es, FromCuts t e ∧ (Eff.At i e ∨ e = .rmRaw i)) :
    ∀ d : Disk K, d.file.isSome → (∀ g, groupOf d i = some g → g.cuts = none ∨ g.cuts = some t) →
      ∀ g, groupOf (applyAll d es) i = some g → g.cuts = none ∨ g.cuts = some t := by
  induction es with
  | nil => intro d _ h; exact h
  | cons e es ih =>
    intro d hd h
    obtain ⟨h1, h2⟩ := he e List.mem_cons_self
    refine ih (fun x hx => he x (List.mem_cons_of_mem _ hx)) (apply d e) ?_ ?_
    · rcases h2 with h2 | rfl
      · rw [(apply_at d hd i e h2).1.file]; exact hd
      · exact hd
    · rcases h2 with h2 | rfl
      · rw [(apply_at d hd i e h2).2.2]
        exact gapply_cuts t e h1 _ h
      · exact h

/-- Writing datasets writes no table. -/
theorem writeData_nocuts (i : ℕ) (t : List (K × ℕ)) (its : List (Except Err (Item K))) :
    ∀ used : List Name, ∀ e ∈ (writeData i used its).1, FromCuts t e := by
  induction its with
  | nil => intro used e he; simp [writeData] at he
  | cons it its ih =>
    intro used e he
    cases it with
    | error x => simp [writeData] at he
    | ok x =>
      unfold writeData at he
      by_cases hx : x.name ∈ used
      · simp [hx] at he
      · simp only [hx, if_false, List.mem_cons] at he
        rcases he with rfl | rfl | rfl | he
        · trivial
        · trivial
        · trivial
        · exact ih _ e he

/-- Among the datasets written, that of the masses is the first of this name. -/
theorem mass_item (f : Formatted K) (other : Fields) (xs : List (Item K))
    (hnd : (xs.map (·.name)).Nodup) (hp : xs.map .ok <+: items f other) (s : Sub) (ms : List K)
    (hm : f.basic.find? (fun p => p.1.name = "mass") = some (s, ms)) (x : Item K) (hx : x ∈ xs)
    (hn : x.name = "mass") : x.col = .one ms := by
  obtain ⟨hs, as, bs, hb, has⟩ := List.find?_eq_some_iff_append.1 hm
  have hs' : s.name = "mass" := by simpa using hs
  let one : Sub × List K → Except Err (Item K) := fun p => .ok ⟨p.1.name, .one p.2, p.1.units, p.1.hdep⟩
  have hitems : items f other = as.map one ++
      (one (s, ms) :: (bs.map one ++ other.flatMap (otherItems f.other))) := by
    unfold items
    rw [hb]
    simp [one]
  rw [hitems] at hp
  have hxm : (.ok x : Except Err (Item K)) ∈ xs.map .ok := List.mem_map.2 ⟨x, hx, rfl⟩
  rcases prefix_append_cases _ _ _ hp with h1 | ⟨Q, hQ, hQ2⟩
  · obtain ⟨q, hq, hqx⟩ := List.mem_map.1 (h1.subset hxm)
    simp only [one, Except.ok.injEq] at hqx
    have h2 := has q hq
    rw [← hqx] at hn
    simp only at hn
    simp [hn] at h2
  · cases Q with
    | nil =>
      rw [List.append_nil] at hQ
      rw [hQ] at hxm
      obtain ⟨q, hq, hqx⟩ := List.mem_map.1 hxm
      simp only [one, Except.ok.injEq] at hqx
      have h2 := has q hq
      rw [← hqx] at hn
      simp only at hn
      simp [hn] at h2
    | cons y Q =>
      have hy := (List.cons_prefix_cons.1 hQ2).1
      have hmem : y ∈ xs.map .ok := by rw [hQ]; simp
      obtain ⟨z, hz, hzy⟩ := List.mem_map.1 hmem
      rw [← hzy] at hy
      simp only [one, Except.ok.injEq] at hy
      have : x = z := same_item hnd hx hz (by rw [hn, hy]; exact hs'.symm)
      rw [this, hy]

variable [LinearOrder K]

/-- Every dataset that may be written is right. -/
theorem item_right (cat : Cat K) (other : Fields) (raw : Raw K) (f : Formatted K)
    (inds : List ℕ) (hf : FormattedOK cat other raw f inds) (x : Item K)
    (hx : .ok x ∈ items f other) : ∃ e, Stored cat.basic other e ∧ ItemOK cat raw inds e x := by
  unfold items at hx
  rcases List.mem_append.1 hx with hm | hm
  · obtain ⟨p, hp, hpx⟩ := List.mem_map.1 hm
    simp only [Except.ok.injEq] at hpx
    subst hpx
    obtain ⟨e, he, h1, h2, h3⟩ := hf.basicMem p hp
    exact ⟨e, Or.inl he, by simp [h1], by simp [h1], by simp [h1], h2, h3⟩
  · obtain ⟨g, hg, hgx⟩ := List.mem_flatMap.1 hm
    have hkey : g.1 ∈ other.keys := List.mem_map.2 ⟨g, hg, rfl⟩
    unfold otherItems at hgx
    by_cases hw : g.2.length > 1
    · simp only [hw, if_true] at hgx
      obtain ⟨q, hq, hqx⟩ := List.mem_map.1 hgx
      rw [List.mem_filter] at hq
      refine ⟨⟨g.1, g.2.length, q.2, q.1⟩, Or.inr ⟨⟨g.2, hg, rfl, ?_⟩, ?_⟩,
        otherItems_part cat other raw f inds hf g.1 hkey _ hw q.1 q.2 x hqx⟩
      · exact List.mk_mem_zipIdx_iff_getElem?.1 (by simpa using hq.1)
      · rintro ⟨_, hnone⟩
        have := hq.2
        simp only [decide_eq_true_eq] at this
        exact this hnone
    · simp only [hw, if_false] at hgx
      obtain ⟨gk, gs⟩ := g
      cases gs with
      | nil => simp at hgx
      | cons s rest =>
        have hr : rest = [] := by
          cases rest with
          | nil => rfl
          | cons b r => simp at hw
        subst hr
        obtain ⟨c', hc', hI⟩ := otherItems_single cat other raw f inds hf gk hkey s
        simp only [hc', List.mem_singleton, Except.ok.injEq] at hgx
        subst hgx
        exact ⟨_, Or.inr ⟨⟨[s], hg, rfl, rfl⟩, by simp⟩, hI⟩

/-- At any point of writing a snapshot, nothing has been done or what is in its group is part of the
raw data. -/
theorem writeOne_part (cat : Cat K) (harg : IsArgsort cat.argsort) (other : Fields) (clean : Bool)
    (i : ℕ) (raw : Raw K) (f : Formatted K) (hf : formatOne cat other raw = .ok f) (d : Disk K)
    (hd : d.file.isSome) (P : List (Eff K))
    (hP : P <+: (writeOne cat other clean (hasGroup d i) i f).1) :
    P = [] ∨ ∀ g, groupOf (applyAll d P) i = some g → ∃ p, PartOf cat other raw g p := by
  obtain ⟨inds, hF⟩ := formatOne_ok cat harg other raw f hf
  obtain ⟨xs, hx1, hx2, hxp, hx3⟩ := writeData_from i (items f other) ["mass_cuts"]
  have hat := writeData_at i (items f other) ["mass_cuts"]
  have hnc := writeData_nocuts i f.cuts (items f other) ["mass_cuts"]
  -- the effects after the first
  have hall : ∀ e ∈ (writeOne cat other clean (hasGroup d i) i f).1,
      (FromItems xs e ∧ FromCuts f.cuts e) ∧ (Eff.At i e ∨ e = .rmRaw i) := by
    intro e he
    unfold writeOne at he
    cases hw : writeData i ["mass_cuts"] (items f other) with
    | mk es r =>
      rw [hw] at he hx3 hat hnc
      have hst : e ∈ ((if hasGroup d i then [.delGroup i] else []) ++
          [.newGroup i, .newCuts i f.cuts] : List (Eff K)) →
          (FromItems xs e ∧ FromCuts f.cuts e) ∧ (Eff.At i e ∨ e = .rmRaw i) := by
        intro he
        rcases List.mem_append.1 he with he | he
        · split at he
          · simp only [List.mem_singleton] at he
            subst he; exact ⟨⟨trivial, trivial⟩, Or.inl .del⟩
          · cases he
        · simp only [List.mem_cons, List.not_mem_nil, or_false] at he
          rcases he with rfl | rfl
          · exact ⟨⟨trivial, trivial⟩, Or.inl .new⟩
          · exact ⟨⟨trivial, rfl⟩, Or.inl (.cuts _)⟩
      cases r with
      | error x =>
        rcases List.mem_append.1 he with he | he
        · exact hst he
        · exact ⟨⟨hx3 e he, hnc e he⟩, Or.inl (hat e he)⟩
      | ok u =>
        simp only [List.append_assoc] at he
        rw [← List.append_assoc] at he
        rcases List.mem_append.1 he with he | he
        · exact hst he
        · rcases List.mem_append.1 he with he | he
          · exact ⟨⟨hx3 e he, hnc e he⟩, Or.inl (hat e he)⟩
          · rcases List.mem_append.1 he with he | he
            · simp only [List.mem_singleton] at he
              subst he; exact ⟨⟨trivial, trivial⟩, Or.inl (.info _)⟩
            · split at he
              · simp only [List.mem_singleton] at he
                subst he; exact ⟨⟨trivial, trivial⟩, Or.inr rfl⟩
              · cases he
  have hfirst : ∀ e P', P = e :: P' → e = .delGroup i ∨ e = .newGroup i := by
    rintro e P' rfl
    obtain ⟨T, hT⟩ := hP
    unfold writeOne at hT
    cases hw : writeData i ["mass_cuts"] (items f other) with
    | mk es r =>
      rw [hw] at hT
      by_cases hg : hasGroup d i = true <;> cases r <;>
        simp only [hg, Bool.false_eq_true, if_false, if_true, List.nil_append, List.cons_append,
          List.cons.injEq] at hT
      · exact Or.inl hT.1
      · exact Or.inl hT.1
      · exact Or.inr hT.1
      · exact Or.inr hT.1
  cases P with
  | nil => exact Or.inl rfl
  | cons e P =>
    right
    intro g hg
    have hsub := hP.subset
    obtain ⟨e1, e2⟩ := hall e (hsub List.mem_cons_self)
    have hAt : Eff.At i e := by
      rcases hfirst e P rfl with rfl | rfl
      · exact .del
      · exact .new
    obtain ⟨a1, a2, a3⟩ := apply_at d hd i e hAt
    have hH : HoldsSome xs g := by
      refine applyAll_holds i xs hx2 P
        (fun x hx => ⟨(hall x (hsub (List.mem_cons_of_mem _ hx))).1.1, (hall x (hsub (List.mem_cons_of_mem _ hx))).2⟩)
        (apply d e) (by rw [a1.file]; exact hd) ?_ g hg
      intro g0 h0
      rw [a3] at h0
      rcases hfirst e P rfl with rfl | rfl
      · cases h0
      · simp only [gapply, Option.some.injEq] at h0
        subst h0
        intro name D hD
        cases hD
    have hC : g.cuts = none ∨ g.cuts = some f.cuts := by
      refine applyAll_cuts i f.cuts P
        (fun x hx => ⟨(hall x (hsub (List.mem_cons_of_mem _ hx))).1.2,
          (hall x (hsub (List.mem_cons_of_mem _ hx))).2⟩)
        (apply d e) (by rw [a1.file]; exact hd) ?_ g hg
      intro g0 h0
      rw [a3] at h0
      rcases hfirst e P rfl with rfl | rfl
      · cases h0
      · simp only [gapply, Option.some.injEq] at h0
        subst h0
        exact Or.inl rfl
    refine ⟨inds, hF.perm, ?_, ?_⟩
    swap
    · intro D hD
      obtain ⟨x, hx, n1, n2, -, -⟩ := hH "mass" D hD
      obtain ⟨s, ms, m1, m2, m3⟩ := hF.mass
      refine ⟨ms, by rw [n2]; exact mass_item f other xs hx2 hxp s ms m1 x hx n1, m2, ?_⟩
      intro t ht
      rcases hC with h1 | h1
      · rw [h1] at ht; cases ht
      · rw [h1, Option.some.injEq] at ht
        subst ht
        refine ⟨by rw [m3]; simp [massCuts, Function.comp_def], ?_⟩
        intro c hc
        rw [m3] at hc
        unfold massCuts at hc
        obtain ⟨b, _, rfl⟩ := List.mem_map.1 hc
        exact cutIndex_eq ms m2 b
    intro name D hD
    obtain ⟨x, hx, n1, n2, n3, n4⟩ := hH name D hD
    obtain ⟨y1, y2⟩ := hx1 x hx
    obtain ⟨en, hen, m1, m2, m3, m4, m5⟩ := item_right cat other raw f inds hF x y1
    refine ⟨fun h => y2 (by rw [n1, h]; simp), en, hen, by rw [← m1, n1], by rw [← m2]; exact n3,
      by rw [← m3]; exact n4, by rw [n2]; exact m4, by rw [n2]; exact m5⟩

/-- At any point of the loop, the group of a snapshot is as it was, or gone, or part of the raw data
of a snapshot to be formatted. -/
theorem formatLoop_part (cat : Cat K) (harg : IsArgsort cat.argsort) (other : Fields)
    (clean : Bool) (todo : List ℕ) (hnd : todo.Nodup) : ∀ (d : Disk K), d.file.isSome →
    ∀ P, P <+: (formatLoop cat other clean d todo).1 → ∀ j,
      groupOf (applyAll d P) j = groupOf d j ∨ (j ∈ todo ∧ ∃ raw, d.raw.get? j = some raw ∧
        ∀ g, groupOf (applyAll d P) j = some g → ∃ p, PartOf cat other raw g p) := by
  induction todo with
  | nil =>
    intro d _ P hP j
    have : P = [] := List.prefix_nil.1 hP
    subst this
    exact Or.inl rfl
  | cons i rest ih =>
    intro d hd P hP j
    rw [List.nodup_cons] at hnd
    unfold formatLoop at hP
    cases hr : d.raw.get? i with
    | none =>
      rw [hr] at hP
      have : P = [] := List.prefix_nil.1 hP
      subst this
      exact Or.inl rfl
    | some raw =>
      rw [hr] at hP
      simp only at hP
      cases hf : formatOne cat other raw with
      | error e =>
        rw [hf] at hP
        have : P = [] := List.prefix_nil.1 hP
        subst this
        exact Or.inl rfl
      | ok f =>
        rw [hf] at hP
        simp only at hP
        have one : ∀ Q, Q <+: (writeOne cat other clean (hasGroup d i) i f).1 →
            Frame i d (applyAll d Q) ∧ (groupOf (applyAll d Q) j = groupOf d j ∨
              (j ∈ i :: rest ∧ ∃ raw, d.raw.get? j = some raw ∧
              ∀ g, groupOf (applyAll d Q) j = some g → ∃ p, PartOf cat other raw g p)) := by
          intro Q hQ
          obtain ⟨h1, -⟩ := writeOne_prefix cat other clean (hasGroup d i) i f Q hQ d hd
          refine ⟨h1, ?_⟩
          by_cases hji : j = i
          · subst hji
            rcases writeOne_part cat harg other clean j raw f hf d hd Q hQ with h2 | h2
            · left; rw [h2]; rfl
            · exact Or.inr ⟨List.mem_cons_self, raw, hr, h2⟩
          · exact Or.inl (h1.groups j hji)
        cases hw : writeOne cat other clean (hasGroup d i) i f with
        | mk es r =>
          rw [hw] at hP one
          cases r with
          | error e => exact (one P hP).2
          | ok u =>
            simp only at hP
            rcases prefix_append_cases P es _ hP with h | ⟨Q, rfl, hQ⟩
            · exact (one P h).2
            · rw [applyAll_append]
              obtain ⟨fr, hone⟩ := one es List.prefix_rfl
              have hd' : (applyAll d es).file.isSome := by rw [fr.file]; exact hd
              rcases ih hnd.2 (applyAll d es) hd' Q hQ j with h2 | ⟨hj, raw', h2, h3⟩
              · rw [h2]; exact hone
              · have hji : j ≠ i := fun e => hnd.1 (e ▸ hj)
                refine Or.inr ⟨List.mem_cons_of_mem _ hj, raw', ?_, h3⟩
                rw [← fr.raw j hji]; exact h2

/-- At any point of a call, the group of a snapshot is as it was, or gone, or part of the raw data of
a snapshot the call formats. -/
theorem format_part (cat : Cat K) (hc : Sound cat) (o : Opts) (ans : List String) (d : Disk K)
    (hd : Unique d) (es : List (Eff K)) (r : Except Err Unit)
    (h : format cat o ans d = some (es, r)) (P : List (Eff K)) (hP : P <+: es) (i : ℕ) (g : Group K)
    (hg : groupOf (applyAll d P) i = some g) :
    groupOf d i = some g ∨ ∃ other raw p, Uses cat o d other ∧ Formats cat o d i ∧
      d.raw.get? i = some raw ∧ PartOf cat other raw g p := by
  rcases format_plan cat o ans d es _ h with ⟨h1, _⟩ | ⟨hcons, hp⟩
  · subst h1
    have : P = [] := List.prefix_nil.1 hP
    subst this
    exact Or.inl hg
  · obtain ⟨other, hu, hcase⟩ := hp.uses hd
    rcases hcase with ⟨hn, hes, hr⟩ | ⟨hn, todo, all, file, old, hf, hold, htodo, hnd, hall, hes, hr⟩
    · have hst : (applyAll d [.truncate, .setNum cat.numberSnaps, .setMetas cat.metas]).file.isSome :=
        by rw [start_new]; rfl
      rw [hes] at hP
      rcases prefix_append_cases P _ _ hP with h3 | ⟨Q, rfl, hQ⟩
      · rcases prefix_three P _ _ _ h3 with rfl | rfl | rfl | rfl
        · exact Or.inl hg
        · cases hg
        · cases hg
        · cases hg
      · rw [applyAll_append] at hg
        rcases formatLoop_part cat hc.argsort other o.clean cat.snaps hc.snaps _ hst Q hQ i with
          h3 | ⟨hi, raw, h3, h4⟩
        · rw [h3] at hg; cases hg
        · obtain ⟨p, hp⟩ := h4 g hg
          exact Or.inr ⟨other, raw, p, hu, ⟨hi, Or.inl hn⟩, by rw [start_new] at h3; exact h3, hp⟩
    · have hst : (applyAll d [.setMetas all, .setNum all.length]).file.isSome := by
        rw [start_add d file hf]; rfl
      rw [hes] at hP
      have hgr : ∀ i, groupOf (applyAll d [.setMetas all, .setNum all.length]) i = groupOf d i := by
        intro i; rw [start_add d file hf]; unfold groupOf; rw [hf]
      rcases prefix_append_cases P _ _ hP with h3 | ⟨Q, rfl, hQ⟩
      · rcases prefix_two P _ _ h3 with rfl | rfl | rfl
        · exact Or.inl hg
        · left
          simp only [applyAll, List.foldl_cons, List.foldl_nil, apply, groupOf, hf,
            Option.map_some] at hg ⊢
          exact hg
        · left; rw [← hgr i]; exact hg
      · rw [applyAll_append] at hg
        rcases formatLoop_part cat hc.argsort other o.clean todo (hnd hc.snaps) _ hst Q hQ i with
          h3 | ⟨hi, raw, h3, h4⟩
        · left; rw [h3, hgr] at hg; exact hg
        · obtain ⟨p, hp⟩ := h4 g hg
          exact Or.inr ⟨other, raw, p, hu, (htodo i).1 hi,
            by rw [start_add d file hf] at h3; exact h3, hp⟩

theorem Reached.names {d0 d : Disk K} (h0 : NamesUnique d0) (h : Reached d0 d) : NamesUnique d := by
  induction h with
  | refl => exact h0
  | run _ r es P out _ _ _ ih => exact names_applyAll P _ ih
  | raw _ raw ih => exact ih

end Verif.Format
