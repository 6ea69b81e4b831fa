import Verif.Model.LCOpen
import Verif.Spec.LCOpen
import Verif.Lemmas.FormatRead
import Verif.Props.LCFile

set_option linter.unusedSectionVars false

/-!
# Lemmas about opening lightcones
-/

namespace Verif.LC

open Verif.Sim (Err SnapMeta)
open Verif.Handler (Dataset State V)
open Verif.Handler.Spec (WF Reachable)
open Verif.LC.Spec

section
variable {K : Type}

theorem coneAttr_eq (sim : String → Option (String × ℤ)) (name : String) :
    coneAttr sim name = attr sim name := by
  unfold coneAttr attr
  by_cases h1 : name = "ra" <;> by_cases h2 : name = "dec" <;> by_cases h3 : name = "redshift" <;>
    by_cases h4 : name = "masscheck" <;> simp [h1, h2, h3, h4]

theorem coneGroup_keys (sim : String → Option (String × ℤ)) (full : PyDict String (List K)) :
    (coneGroup sim full).keys = full.keys := by
  unfold coneGroup PyDict.keys
  rw [List.map_map]
  rfl

theorem coneGroup_get (sim : String → Option (String × ℤ)) (full : PyDict String (List K))
    (k : String) : (coneGroup sim full).get? k = (full.get? k).map (fun v =>
      ⟨v.map some, (coneAttr sim k).map (·.1), (coneAttr sim k).map (·.2), false⟩) := by
  unfold coneGroup
  induction full with
  | nil => rfl
  | cons q full ih =>
    simp only [List.map_cons, PyDict.get?]
    split
    · rename_i e; subst e; rfl
    · exact ih

theorem findIdx_filter {α : Type} (p : α → Bool) (l : List α) :
    l.findIdx p + (l.filter p).length ≤ l.length := by
  induction l with
  | nil => simp
  | cons a l ih =>
    rw [List.findIdx_cons, List.filter_cons]
    cases h : p a
    · simp only [cond_false, Bool.false_eq_true, if_false, List.length_cons]
      omega
    · simp only [cond_true, if_true, List.length_cons]
      have := List.length_filter_le p l
      omega

end

variable {K : Type} [Field K] [LinearOrder K] [IsStrictOrderedRing K] [FloorRing K]

/-- A file that can be opened. -/
structure Tidy (known : String → Prop) (rows : List (Row K)) (old full : PyDict String (List K)) :
    Prop where
  nodup : full.keys.Nodup
  lengths : ∀ k l, full.get? k = some l → l.length = rows.length ∧ known k
  mass : (full.get? "mass").isSome
  kept : ∀ k l, old.get? k = some l → full.get? k = some l

/-- The changes made by adding properties. -/
def Mild (known : String → Prop) (rows : List (Row K)) (old : PyDict String (List K)) :
    FEff K → Prop
  | .beginExtra => True
  | .setDone _ => True
  | .newSet k => known k
  | .write k start vals => start + vals.length ≤ rows.length ∧ old.get? k = none
  | _ => False

theorem splice_length {l : List K} {start : ℕ} {vals : List K}
    (h : start + vals.length ≤ l.length) : (splice l start vals).length = l.length := by
  unfold splice
  simp only [List.length_append, List.length_take, List.length_drop]
  omega

theorem tidy_step {known : String → Prop} {rows : List (Row K)} {old full : PyDict String (List K)}
    {f f' : LCFile K} {e : FEff K} (hm : Mild known rows old e) (hr : f.rows = some rows)
    (hf : f.full = some full) (ht : Tidy known rows old full) (h : stepFile (some f) e = .ok f') :
    f'.rows = some rows ∧ ∃ full', f'.full = some full' ∧ Tidy known rows old full' := by
  cases e with
  | truncate l p => exact hm.elim
  | init bins => exact hm.elim
  | append rows => exact hm.elim
  | makeFull => exact hm.elim
  | setBasic => exact hm.elim
  | beginExtra =>
    simp only [stepFile, LCFile.step, Except.ok.injEq] at h
    subst h
    exact ⟨hr, full, hf, ht⟩
  | setDone b =>
    simp only [stepFile, LCFile.step, Except.ok.injEq] at h
    subst h
    exact ⟨hr, full, hf, ht⟩
  | newSet k =>
    simp only [stepFile, LCFile.step, hr, hf] at h
    split at h
    · cases h
    · rename_i hk
      split at h
      · cases h
      simp only [Except.ok.injEq] at h
      subst h
      have hnone : full.get? k = none := by
        cases hg : full.get? k with
        | none => rfl
        | some v => simp [PyDict.has, hg] at hk
      refine ⟨rfl, _, rfl, PyDict.keys_set_nodup _ _ _ ht.nodup, ?_, ?_, ?_⟩
      · intro k' l hl
        rw [PyDict.get?_set] at hl
        split at hl
        · rename_i e
          subst e
          cases hl
          exact ⟨by simp, hm⟩
        · exact ht.lengths k' l hl
      · rw [PyDict.get?_set]
        split
        · rfl
        · exact ht.mass
      · intro k' l hl
        rw [PyDict.get?_set]
        have := ht.kept k' l hl
        split
        · rename_i e
          subst e
          rw [hnone] at this
          cases this
        · exact this
  | write k start vals =>
    simp only [stepFile, LCFile.step, hf] at h
    cases hk : full.get? k with
    | none => rw [hk] at h; cases h
    | some l0 =>
      rw [hk] at h
      simp only [Except.ok.injEq] at h
      subst h
      obtain ⟨g1, g2⟩ := ht.lengths k l0 hk
      refine ⟨hr, _, rfl, PyDict.keys_set_nodup _ _ _ ht.nodup, ?_, ?_, ?_⟩
      · intro k' l hl
        rw [PyDict.get?_set] at hl
        split at hl
        · rename_i e
          subst e
          cases hl
          exact ⟨by rw [splice_length (by rw [g1]; exact hm.1), g1], g2⟩
        · exact ht.lengths k' l hl
      · rw [PyDict.get?_set]
        split
        · rfl
        · exact ht.mass
      · intro k' l hl
        rw [PyDict.get?_set]
        split
        · rename_i e
          subst e
          rw [hm.2] at hl
          cases hl
        · exact ht.kept k' l hl

theorem tidy_run {known : String → Prop} {rows : List (Row K)} {old : PyDict String (List K)}
    (es : List (FEff K)) (hes : ∀ e ∈ es, Mild known rows old e) (f : LCFile K)
    (full : PyDict String (List K)) (g : Option (LCFile K)) (hr : f.rows = some rows)
    (hf : f.full = some full) (ht : Tidy known rows old full) (h : runFile es (some f) = .ok g) :
    ∃ f' full', g = some f' ∧ f'.rows = some rows ∧ f'.full = some full' ∧
      Tidy known rows old full' := by
  induction es generalizing f full with
  | nil =>
    simp only [runFile, Except.ok.injEq] at h
    subst h
    exact ⟨f, full, rfl, hr, hf, ht⟩
  | cons e es ih =>
    rw [runFile] at h
    rcases hs : stepFile (some f) e with er | f'
    · rw [hs] at h; cases h
    · rw [hs] at h
      simp only at h
      obtain ⟨h1, full', h2, h3⟩ := tidy_step (hes e (by simp)) hr hf ht hs
      exact ih (fun e he => hes e (by simp [he])) f' full' h1 h2 h3 h

/-- After any part of a call that adds properties the file can be opened, and what was there is
there. -/
theorem tidy_add {known : String → Prop} (snaps : List (SnapMeta K)) (add : Adding K)
    (keys : List String) (f : LCFile K) (rows : List (Row K)) (full : PyDict String (List K))
    (hr : f.rows = some rows) (hf : f.full = some full) (ht : Tidy known rows full full)
    (hk : ∀ k ∈ keys.flatMap add.names, known k)
    (P : String → Row K → K → Prop) (hP : Fills add f P) (es : List (FEff K))
    (hes : es <+: addEffs snaps add keys f rows) (g : Option (LCFile K))
    (h : runFile es (some f) = .ok g) :
    ∃ f' full', g = some f' ∧ f'.rows = some rows ∧ f'.full = some full' ∧
      Tidy known rows full full' := by
  unfold addEffs at hes
  rw [List.append_assoc] at hes
  rcases prefix_append_cases hes with hes | ⟨b, hb, rfl⟩
  · refine tidy_run es ?_ f full g hr hf ht h
    intro e he
    have := hes.subset he
    simp only [List.mem_cons, List.mem_map] at this
    rcases this with rfl | rfl | ⟨k, hk', rfl⟩
    · trivial
    · trivial
    · exact hk k hk'
  · obtain ⟨m, h1, h2⟩ := (runFile_append _ _ _ _).1 h
    have hnew : ∀ k ∈ keys.flatMap add.names, full.get? k = none := by
      rw [runFile] at h1
      simp only [stepFile, LCFile.step] at h1
      rw [runFile] at h1
      simp only [stepFile, LCFile.step] at h1
      obtain ⟨-, -, -, hno, -⟩ := runFile_newSets _ _ _ rows full (by exact hr) (by exact hf) h1
      exact hno
    obtain ⟨f1, full1, rfl, r1, r2, r3⟩ := tidy_run (old := full) _ (by
      intro e he
      simp only [List.mem_cons, List.mem_map] at he
      rcases he with rfl | rfl | ⟨k, hk', rfl⟩
      · trivial
      · trivial
      · exact hk k hk') f full m hr hf ht h1
    refine tidy_run b ?_ f1 full1 g r1 r2 r3 h2
    intro e he
    have := hb.subset he
    simp only [List.mem_append, List.mem_map, List.mem_cons, List.not_mem_nil, or_false] at this
    rcases this with ⟨w, hw, rfl⟩ | rfl | rfl
    · unfold writesOf at hw
      obtain ⟨s, hs, hw⟩ := List.mem_flatMap.1 hw
      obtain ⟨key, hkey, hw⟩ := List.mem_flatMap.1 hw
      unfold fillOf at hw
      rcases hfl : add.fill s key f (blockOf rows s) with er | vs
      · rw [hfl] at hw; simp at hw
      · rw [hfl] at hw
        simp only at hw
        obtain ⟨v, hv, rfl⟩ := List.mem_map.1 hw
        obtain ⟨p1, p2⟩ := hP s key (blockOf rows s) vs hfl (by
          intro r hr
          unfold blockOf at hr
          simpa using (List.mem_filter.1 hr).2)
        refine ⟨?_, hnew v.1 (List.mem_flatMap.2 ⟨key, hkey, ?_⟩)⟩
        · simp only
          rw [← (p2 v hv).length_eq]
          unfold startOf blockOf
          split
          · rename_i e0
            rw [show rows.filter (fun r => decide (r.snap = s.index)) = [] from e0]
            simp
          · exact findIdx_filter _ rows
        · rw [← p1]
          exact List.mem_map.2 ⟨v, hv, rfl⟩
    · trivial
    · trivial

/-- A file that can be opened is opened, and the handler shows what is in it. -/
theorem openCone_ok (sim : String → Option (String × ℤ)) (f : LCFile K) (rows : List (Row K))
    (old full : PyDict String (List K)) (hf : f.full = some full)
    (ht : Tidy (fun k => (attr sim k).isSome) rows old full) (h : K) (inH : Bool)
    (more : PyDict Handler.Name K) :
    ∃ st, openCone sim (some f) h inH more = .ok st ∧ Reachable st ∧ st.inH = inH ∧
      st.nAll = rows.length ∧ st.active = List.range rows.length ∧
      (∀ name, name ∈ st.all ↔ name ≠ "mass_cuts" ∧ (full.get? name).isSome) ∧
      ∀ name l, name ≠ "mass_cuts" → full.get? name = some l →
        ∃ u e, attr sim name = some (u, e) ∧ Shown st name e h l := by
  have hwf : WF (coneGroup sim full) rows.length := by
    refine ⟨by rw [coneGroup_keys]; exact ht.nodup, ?_, ?_, ?_, ?_⟩
    · obtain ⟨l, hl⟩ := Option.isSome_iff_exists.1 ht.mass
      rw [coneGroup_get, hl]
      exact ⟨_, rfl, by simp [(ht.lengths _ _ hl).1]⟩
    · intro p d hd _
      rw [coneGroup_get] at hd
      obtain ⟨l, hl, rfl⟩ := Option.map_eq_some_iff.1 hd
      simp [(ht.lengths _ _ hl).1]
    · intro p d hd _
      have hd' := Format.dict_of_mem _ (by rw [coneGroup_keys]; exact ht.nodup) p d hd
      rw [coneGroup_get] at hd'
      obtain ⟨l, hl, rfl⟩ := Option.map_eq_some_iff.1 hd'
      have := (ht.lengths _ _ hl).2
      simp [coneAttr_eq, this]
    · intro p d hd _
      have hd' := Format.dict_of_mem _ (by rw [coneGroup_keys]; exact ht.nodup) p d hd
      rw [coneGroup_get] at hd'
      obtain ⟨l, hl, rfl⟩ := Option.map_eq_some_iff.1 hd'
      have := (ht.lengths _ _ hl).2
      simp [coneAttr_eq, this]
  obtain ⟨s0, hs0, hfile, hn, hh, hin, -, -, ha, -, hall, -⟩ := Handler.init_ok (coneGroup sim full)
    rows.length hwf h inH
  refine ⟨{ s0 with extra := more.foldl (fun d q => d.set q.1 q.2) s0.extra }, ?_,
    ⟨coneGroup sim full, rows.length, h, inH, s0, _, [], hwf, hs0, rfl⟩, hin, hn, ha, ?_, ?_⟩
  · simp only [openCone, hf, hs0]
  · intro name
    rw [show ({ s0 with extra := more.foldl (fun d q => d.set q.1 q.2) s0.extra } : State K).all =
      s0.all from rfl, hall name, coneGroup_get]
    simp
  · intro name l hne hl
    obtain ⟨hlen, hkn⟩ := ht.lengths _ _ hl
    obtain ⟨⟨u, e⟩, hue⟩ := Option.isSome_iff_exists.1 hkn
    refine ⟨u, e, hue, ?_⟩
    intro ops hops useAll b
    have hget : (coneGroup sim full).get? name =
        some ⟨l.map some, some u, some e, false⟩ := by
      rw [coneGroup_get, hl, coneAttr_eq, hue]
      rfl
    obtain ⟨e', he', hu⟩ := Handler.init_un (coneGroup sim full) rows.length hwf h inH s0 hs0 name _
      hne hget
    cases he'
    generalize more.foldl (fun d q => d.set q.1 q.2) s0.extra = ex
    have hu0 : Handler.Un name _ e h rows.length ({ s0 with extra := ex } : State K) :=
      ⟨hu.file, hu.all, hu.saved, hu.hdep, hu.loaded, hu.hh, hu.nn⟩
    have hu' := Handler.run_un _ ops hops hu0
    obtain ⟨a1, a2, a3, a4, a5, a6, a7, a8⟩ := Handler.inv_init (coneGroup sim full) rows.length hwf h
      inH s0 hs0
    have hI : Handler.Inv (Handler.run ({ s0 with extra := ex } : State K) ops) :=
      Handler.run_inv _ _ ⟨a1, a2, a3, a4, a5, a6, a7, a8⟩
    obtain ⟨out, o1, o2, o3⟩ := Handler.returnProperty_ok _ hI name useAll b hu'.all hne _
      hu'.hdep _ hu'.held
    refine ⟨out, o1, o2, ?_⟩
    intro j k hj
    have hk : k < rows.length := by
      have := List.mem_of_getElem? hj
      unfold Handler.Spec.selection at this
      split at this
      · rw [hu'.nn] at this
        simpa using this
      · have := hI.bound k this
        rwa [hu'.nn] at this
    have hkl : k < l.length := by rw [hlen]; exact hk
    refine ⟨l[k], List.getElem?_eq_getElem hkl, ?_⟩
    rw [o3 j]
    rw [Handler.selection_eq] at hj
    rw [hj, hu'.hh]
    simp only [Option.bind_some, List.getElem?_map, List.getElem?_eq_getElem hkl, Option.map_some,
      Handler.Spec.seen]

end Verif.LC
