import Verif.Model.LCSource
import Verif.Spec.LCSource
import Verif.Lemmas.FormatRead
import Verif.Props.LCAdd
import Verif.Props.LightConeBuild

set_option linter.unusedSectionVars false

/-!
# Lemmas about what lightcones are made of
-/

namespace Verif.LC

open Verif.Sim (Err SnapMeta)
open Verif.Format (Col File Disk Run History LastToFormat)
open Verif.Format.Spec (groupOf Complete)
open Verif.LC.Spec

variable {K : Type}

theorem haloList_ok (ms xs ys zs : List K) (l : List (Halo K)) (h : haloList ms xs ys zs = some l) :
    l.map (·.mass) = ms ∧ ∀ (k : ℕ) (halo : Halo K), l[k]? = some halo →
      ms[k]? = some halo.mass ∧ xs[k]? = some (halo.pos 0) ∧ ys[k]? = some (halo.pos 1) ∧
      zs[k]? = some (halo.pos 2) := by
  induction ms generalizing xs ys zs l with
  | nil =>
    cases xs <;> cases ys <;> cases zs <;> simp [haloList] at h
    subst h
    exact ⟨rfl, fun k halo hk => by simp at hk⟩
  | cons m ms ih =>
    cases xs with
    | nil => simp [haloList] at h
    | cons x xs =>
    cases ys with
    | nil => simp [haloList] at h
    | cons y ys =>
    cases zs with
    | nil => simp [haloList] at h
    | cons z zs =>
    rw [haloList] at h
    cases hl : haloList ms xs ys zs with
    | none => rw [hl] at h; cases h
    | some l' =>
      rw [hl] at h
      simp only [Option.some.injEq] at h
      subst h
      obtain ⟨h1, h2⟩ := ih xs ys zs l' hl
      refine ⟨by simp [h1], fun k halo hk => ?_⟩
      cases k with
      | zero =>
        simp only [List.getElem?_cons_zero, Option.some.injEq] at hk
        subst hk
        simp
      | succ k =>
        simp only [List.getElem?_cons_succ] at hk ⊢
        exact h2 k halo hk

theorem column_ok (g : Format.Group K) (name : String) (v : List K) (h : column g name = some (.ok v)) :
    ∃ D, g.data.get? name = some D ∧ D.data = .one v := by
  unfold column at h
  cases hD : g.data.get? name with
  | none => rw [hD] at h; simp at h
  | some D =>
    rw [hD] at h
    simp only at h
    cases hc : D.data with
    | one w =>
      rw [hc] at h
      simp only [Option.some.injEq, Except.ok.injEq] at h
      subst h
      exact ⟨D, rfl, hc⟩
    | many w => rw [hc] at h; simp at h

theorem withColumn_ok {α : Type} {c : Option (Except Err (List K))}
    {f : List K → Option (Except Err α)} {y : α} (h : withColumn c f = some (.ok y)) :
    ∃ l, c = some (.ok l) ∧ f l = some (.ok y) := by
  unfold withColumn at h
  split at h
  · cases h
  · cases h
  · rename_i l
    exact ⟨l, rfl, h⟩

theorem source_ok (file : File K) (i : ℕ) (dat : SnapData K) (h : source file i = some (.ok dat)) :
    ∃ g ms xs ys zs, file.groups.get? i = some g ∧ g.cuts = some dat.cuts ∧
      column g "mass" = some (.ok ms) ∧ column g "pos_x" = some (.ok xs) ∧
      column g "pos_y" = some (.ok ys) ∧ column g "pos_z" = some (.ok zs) ∧
      haloList ms xs ys zs = some dat.halos := by
  unfold source at h
  cases hg : file.groups.get? i with
  | none => rw [hg] at h; simp at h
  | some g =>
    rw [hg] at h
    simp only at h
    cases ht : g.cuts with
    | none => rw [ht] at h; simp at h
    | some t =>
      rw [ht] at h
      simp only at h
      obtain ⟨ms, h1, h⟩ := withColumn_ok h
      obtain ⟨xs, h2, h⟩ := withColumn_ok h
      obtain ⟨ys, h3, h⟩ := withColumn_ok h
      obtain ⟨zs, h4, h⟩ := withColumn_ok h
      cases hl : haloList ms xs ys zs with
      | none => rw [hl] at h; cases h
      | some l =>
        rw [hl] at h
        simp only [Option.some.injEq, Except.ok.injEq] at h
        subst h
        exact ⟨g, ms, xs, ys, zs, rfl, ht, h1, h2, h3, h4, hl⟩

theorem catalogue_get (file : File K) (i : ℕ) (name : String) (v : List K) (g : Format.Group K)
    (hg : file.groups.get? i = some g) (hnd : g.data.keys.Nodup)
    (h : (catalogueOf file i).get? name = some v) : column g name = some (.ok v) := by
  unfold catalogueOf at h
  rw [hg] at h
  simp only at h
  have := Format.dict_mem _ _ _ h
  obtain ⟨q, hq, hq2⟩ := List.mem_filterMap.1 this
  cases hc : q.2.data with
  | many w => rw [hc] at hq2; cases hq2
  | one w =>
    rw [hc] at hq2
    simp only [Option.some.injEq, Prod.mk.injEq] at hq2
    obtain ⟨e1, e2⟩ := hq2
    unfold column
    rw [← e1, Format.dict_of_mem _ hnd q.1 q.2 hq]
    simp only [hc, e2]

variable [LinearOrder K]

/-- The columns of a complete group are columns of the raw data, in one order. -/
theorem column_origin (o : Origin K) (i : ℕ) (g : Format.Group K)
    (ho : ∀ e, Format.Spec.Stored o.cat.basic o.other e → ∃ D, g.data.get? e.sub.name = some D ∧
      D.units = some e.sub.units ∧ D.hdep = some e.sub.hdep ∧ Format.Spec.size D.data = o.raw.n ∧
      ∀ (k j : ℕ), o.order[k]? = some j →
        ∃ v, Format.Spec.row D.data k = some v ∧ Format.Spec.value o.cat o.raw e j = some v)
    (hp : o.order.Perm (List.range o.raw.n))
    (hc : Complete o.cat o.other o.raw i g) (name : String) (v : List K)
    (h : column g name = some (.ok v)) :
    v.length = o.raw.n ∧ ∀ (k : ℕ) (x : K), v[k]? = some x →
      ∃ j, o.order[k]? = some j ∧ o.Raw j name x := by
  obtain ⟨D, h1, h2⟩ := column_ok g name v h
  obtain ⟨e, he, hn⟩ := hc.only name (by rw [PyDict.mem_keys_iff, h1]; rfl)
  obtain ⟨D', g1, -, -, g4, g5⟩ := ho e he
  rw [hn, h1] at g1
  cases g1
  rw [h2] at g4 g5
  have hl : v.length = o.raw.n := g4
  refine ⟨hl, fun k x hk => ?_⟩
  have hko : k < o.order.length := by
    rw [hp.length_eq, List.length_range, ← hl]
    exact (List.getElem?_eq_some_iff.1 hk).1
  obtain ⟨w, w1, w2⟩ := g5 k o.order[k] (List.getElem?_eq_getElem hko)
  simp only [Format.Spec.row, hk, Option.map_some, Option.some.injEq] at w1
  subst w1
  exact ⟨_, List.getElem?_eq_getElem hko, e, he, hn, w2⟩

/-- The value of a property of a halo is unique in data that were formatted. -/
theorem raw_unique (o : Origin K) (g : Format.Group K)
    (ho : ∀ e, Format.Spec.Stored o.cat.basic o.other e → ∃ D, g.data.get? e.sub.name = some D ∧
      D.units = some e.sub.units ∧ D.hdep = some e.sub.hdep ∧ Format.Spec.size D.data = o.raw.n ∧
      ∀ (k j : ℕ), o.order[k]? = some j →
        ∃ v, Format.Spec.row D.data k = some v ∧ Format.Spec.value o.cat o.raw e j = some v)
    (k j : ℕ) (hk : o.order[k]? = some j) (name : String) (x y : K) (hx : o.Raw j name x)
    (hy : o.Raw j name y) : x = y := by
  obtain ⟨e, he, hn, hv⟩ := hx
  obtain ⟨e', he', hn', hv'⟩ := hy
  obtain ⟨D, d1, -, -, -, d5⟩ := ho e he
  obtain ⟨D', d1', -, -, -, d5'⟩ := ho e' he'
  rw [hn] at d1
  rw [hn', d1] at d1'
  cases d1'
  obtain ⟨v, v1, v2⟩ := d5 k j hk
  obtain ⟨v', v1', v2'⟩ := d5' k j hk
  rw [v1] at v1'
  cases v1'
  rw [hv] at v2
  rw [hv'] at v2'
  rw [← v2] at v2'
  cases v2'
  rfl

variable [Field K] [IsStrictOrderedRing K] [FloorRing K]

/-- If building from a file ends normally, it is the building from what is read. -/
theorem fillFrom_ok (st : Settings K) (skies : List (Sky K)) (file : File K)
    (snaps : List (SnapMeta K)) (l : List (Step K)) (h : fillFrom st skies file snaps = some l)
    (hnf : NoFail l) : l = fillPlan st skies (sourceOf file) snaps ∧
      ∀ s ∈ snaps, source file s.index = some (.ok (sourceOf file s.index)) := by
  induction snaps generalizing l with
  | nil =>
    simp only [fillFrom, Option.some.injEq] at h
    subst h
    exact ⟨rfl, by simp⟩
  | cons s snaps ih =>
    rw [fillFrom] at h
    rcases hs : source file s.index with - | e | dat
    · rw [hs] at h; cases h
    · rw [hs] at h
      simp only [Option.some.injEq] at h
      subst h
      exact absurd rfl (hnf (.fail e) (by simp) e)
    · rw [hs] at h
      simp only at h
      cases hr : fillFrom st skies file snaps with
      | none => rw [hr] at h; cases h
      | some later =>
        rw [hr] at h
        simp only [Option.some.injEq] at h
        subst h
        obtain ⟨h1, h2⟩ := NoFail.append.1 hnf
        obtain ⟨h3, h4⟩ := ih later hr h2
        have hso : sourceOf file s.index = dat := by simp only [sourceOf, hs]
        refine ⟨?_, ?_⟩
        · rw [h3]
          simp only [fillPlan, List.flatMap_cons, hso]
          rfl
        · intro s' hs'
          rcases List.mem_cons.1 hs' with rfl | hs'
          · rw [hs, hso]
          · exact h4 s' hs'

theorem buildFrom_ok (file : File K) (st : Settings K) (skies : List (Sky K)) (bins : List K)
    (plan : List (Step K)) (h : buildFrom file st skies bins = some plan) (d d' : Folder K)
    (hx : exec plan d = (d', .ok ())) :
    ∃ metas, makerMetas file = .ok metas ∧
      plan = buildPlan st skies metas (sourceOf file) bins ∧
      ∀ s ∈ snapsUsed st metas, source file s.index = some (.ok (sourceOf file s.index)) := by
  unfold buildFrom at h
  rcases hm : makerMetas file with e | metas
  · rw [hm] at h
    simp only [Option.some.injEq] at h
    subst h
    exact absurd rfl ((exec_ok hx).1 (.fail e) (by simp) e)
  · rw [hm] at h
    simp only at h
    cases hl : fillFrom st skies file (snapsUsed st metas) with
    | none => rw [hl] at h; cases h
    | some l =>
      rw [hl] at h
      simp only [Option.some.injEq] at h
      subst h
      have hnf := (exec_ok hx).1
      obtain ⟨h1, h2⟩ := fillFrom_ok st skies file _ l hl
        (NoFail.append.1 (NoFail.append.1 hnf).1).2
      exact ⟨metas, rfl, by rw [h1]; rfl, h2⟩

theorem makerMetas_ok (file : File K) (metas : List (SnapMeta K)) (h : makerMetas file = .ok metas) :
    file.metas = some metas ∧ file.groups ≠ [] := by
  unfold makerMetas at h
  cases hm : file.metas with
  | none => rw [hm] at h; simp at h
  | some l =>
    rw [hm] at h
    simp only at h
    split at h
    · cases h
    · cases hg : Format.firstGroup file.groups with
      | none => rw [hg] at h; cases h
      | some g =>
        rw [hg] at h
        simp only at h
        split at h
        · simp only [Except.ok.injEq] at h
          subst h
          refine ⟨rfl, ?_⟩
          intro e
          rw [e] at hg
          cases hg
        · cases h

end Verif.LC
