import Verif.Lemmas.Handler2

namespace Verif.Handler
open Spec

variable {K : Type}

theorem reachable_inv [DivisionRing K] [LE K] [DecidableLE K] {s : State K} (h : Reachable s) :
    Inv s := by
  obtain ⟨file, n, h, inH, s0, extra, ops, hwf, h0, rfl⟩ := h
  obtain ⟨a, b, c, d, e, f, g, i⟩ := inv_init file n hwf h inH s0 h0
  exact run_inv _ _ ⟨a, b, c, d, e, f, g, i⟩

/-- Everything `storeOne` and a loop over it leave alone. -/
structure SameBase (s s' : State K) : Prop where
  file : s'.file = s.file
  saved : s'.saved = s.saved
  h : s'.h = s.h
  nAll : s'.nAll = s.nAll
  active : s'.active = s.active
  nActive : s'.nActive = s.nActive
  inH : s'.inH = s.inH
  extra : s'.extra = s.extra

theorem SameBase.refl (s : State K) : SameBase s s := ⟨rfl, rfl, rfl, rfl, rfl, rfl, rfl, rfl⟩

theorem SameBase.trans {a b c : State K} (h : SameBase a b) (g : SameBase b c) : SameBase a c :=
  ⟨g.file.trans h.file, g.saved.trans h.saved, g.h.trans h.h, g.nAll.trans h.nAll,
   g.active.trans h.active, g.nActive.trans h.nActive, g.inH.trans h.inH, g.extra.trans h.extra⟩

theorem SameBase.inds {s s' : State K} (h : SameBase s s') (u : Bool) : inds s' u = inds s u := by
  simp [Handler.inds, h.nAll, h.active]

theorem storeOne_base (u : PyDict Name String) (hd : Option (PyDict Name ℤ)) (is : List ℕ)
    (s : State K) (it : Item K) : SameBase s (storeOne u hd is s it).1 := by
  unfold storeOne
  split
  · exact SameBase.refl s
  · split
    · exact SameBase.refl s
    · dsimp only
      split
      · exact ⟨rfl, rfl, rfl, rfl, rfl, rfl, rfl, rfl⟩
      · split
        · exact ⟨rfl, rfl, rfl, rfl, rfl, rfl, rfl, rfl⟩
        · split
          · exact ⟨rfl, rfl, rfl, rfl, rfl, rfl, rfl, rfl⟩
          · split
            · exact ⟨rfl, rfl, rfl, rfl, rfl, rfl, rfl, rfl⟩
            · exact ⟨rfl, rfl, rfl, rfl, rfl, rfl, rfl, rfl⟩

/-- Result of a successful `storeOne`. -/
theorem storeOne_ok (u : PyDict Name String) (hd : Option (PyDict Name ℤ)) (is : List ℕ)
    (s s' : State K) (it : Item K) (h : storeOne u hd is s it = (s', .ok ())) :
    it.arr.isInt = false ∧ ∃ vals un hd' e,
      scatter (List.replicate s.nAll none) is it.arr.vals = .ok vals ∧
      u.get? it.name = some un ∧ hd = some hd' ∧ hd'.get? it.name = some e ∧
      s'.loaded = s.loaded.set it.newName vals ∧
      s'.units = s.units.set it.newName un ∧
      s'.hdep = s.hdep.set it.newName e ∧
      s'.all = (if it.exists' then s.all else s.all ++ [it.newName]) := by
  unfold storeOne at h
  split at h
  · simp at h
  · rename_i hint
    refine ⟨by simpa using hint, ?_⟩
    split at h
    · simp at h
    · rename_i vals hvals
      dsimp only at h
      split at h
      · simp at h
      · rename_i un hun
        split at h
        · simp at h
        · rename_i hd'
          split at h
          · simp at h
          · rename_i e he
            split at h
            · rename_i hex
              simp only [Prod.mk.injEq, and_true] at h
              subst h
              exact ⟨vals, un, hd', e, hvals, hun, rfl, he, rfl, rfl, rfl, by simp [hex]⟩
            · rename_i hex
              simp only [Prod.mk.injEq, and_true] at h
              subst h
              exact ⟨vals, un, hd', e, hvals, hun, rfl, he, rfl, rfl, rfl, by simp [hex]⟩

theorem storeOne_succeeds (u : PyDict Name String) (hd : PyDict Name ℤ) (is : List ℕ)
    (s : State K) (it : Item K) (hint : it.arr.isInt = false) (vals : List (V K))
    (hsc : scatter (List.replicate s.nAll none) is it.arr.vals = .ok vals)
    (hu : (u.get? it.name).isSome) (he : (hd.get? it.name).isSome) :
    ∃ s', storeOne u (some hd) is s it = (s', .ok ()) := by
  obtain ⟨un, hun⟩ := Option.isSome_iff_exists.1 hu
  obtain ⟨e, he⟩ := Option.isSome_iff_exists.1 he
  unfold storeOne
  simp only [hint, Bool.false_eq_true, if_false, hsc, hun, he]
  split
  · exact ⟨_, rfl⟩
  · exact ⟨_, rfl⟩

/-- Result of a successful loop over distinct names. -/
theorem storeAll_ok (u : PyDict Name String) (hd : Option (PyDict Name ℤ)) (is : List ℕ)
    (its : List (Item K)) (s s' : State K) (hnd : (its.map Item.newName).Nodup)
    (hex : ∀ it ∈ its, it.exists' = true → it.newName ∈ s.all)
    (h : forEach (storeOne u hd is) s its = (s', .ok ())) :
    SameBase s s' ∧
    (∀ q, q ∉ its.map Item.newName → s'.loaded.get? q = s.loaded.get? q ∧
      s'.hdep.get? q = s.hdep.get? q ∧ s'.units.get? q = s.units.get? q ∧ (q ∈ s'.all ↔ q ∈ s.all)) ∧
    (∀ q, q ∈ s.all → q ∈ s'.all) ∧
    (∀ it ∈ its, it.arr.isInt = false ∧ it.newName ∈ s'.all ∧ ∃ vals un hd' e,
      scatter (List.replicate s.nAll none) is it.arr.vals = .ok vals ∧
      u.get? it.name = some un ∧ hd = some hd' ∧ hd'.get? it.name = some e ∧
      s'.loaded.get? it.newName = some vals ∧ s'.units.get? it.newName = some un ∧
      s'.hdep.get? it.newName = some e) := by
  induction its generalizing s with
  | nil =>
    simp only [forEach, Prod.mk.injEq, and_true] at h
    subst h
    exact ⟨SameBase.refl s, by simp, fun _ h => h, by simp⟩
  | cons it its ih =>
    obtain ⟨s1, h1, h2⟩ := forEach_ok_cons _ _ _ _ _ h
    have hb := storeOne_base u hd is s it
    rw [h1] at hb
    obtain ⟨hint, vals, un, hd', e, a1, a2, a3, a4, a5, a6, a7, a8⟩ := storeOne_ok _ _ _ _ _ _ h1
    simp only [List.map_cons, List.nodup_cons] at hnd
    have hsub : ∀ q, q ∈ s.all → q ∈ s1.all := by
      intro q hq; rw [a8]; split
      · exact hq
      · simp [hq]
    obtain ⟨b1, b2, b3, b4⟩ := ih s1 hnd.2
      (fun x hx hxe => hsub _ (hex x (by simp [hx]) hxe)) h2
    refine ⟨hb.trans b1, ?_, fun q hq => b3 q (hsub q hq), ?_⟩
    · intro q hq
      simp only [List.map_cons, List.mem_cons, not_or] at hq
      obtain ⟨c1, c2, c3, c4⟩ := b2 q hq.2
      have hne : ¬ it.newName = q := fun e => hq.1 e.symm
      rw [c1, c2, c3, c4, a5, a6, a7, a8]
      refine ⟨by simp [hne], by simp [hne], by simp [hne], ?_⟩
      split
      · rfl
      · simp [hq.1]
    · intro x hx
      rcases List.mem_cons.1 hx with rfl | hx
      · obtain ⟨c1, c2, c3, c4⟩ := b2 x.newName hnd.1
        have hin : x.newName ∈ s1.all := by
          rw [a8]; split
          · rename_i hxe; exact hex x (by simp) hxe
          · simp
        refine ⟨hint, b3 _ hin, vals, un, hd', e, a1, a2, a3, a4, ?_, ?_, ?_⟩
        · rw [c1, a5]; simp
        · rw [c3, a6]; simp
        · rw [c2, a7]; simp
      · obtain ⟨d1, d2, v, un', hd'', e', d3, d4, d5, d6, d7, d8, d9⟩ := b4 x hx
        rw [hb.nAll] at d3
        exact ⟨d1, d2, v, un', hd'', e', d3, d4, d5, d6, d7, d8, d9⟩

theorem checkNames_ok (s : State K) (ov : Bool) (ns : List Name) (bs : List Bool)
    (h : checkNames s ov ns = .ok bs) :
    bs.length = ns.length ∧
      ∀ (k : ℕ) n b, ns[k]? = some n → bs[k]? = some b → (b = true ↔ n ∈ s.all) := by
  induction ns generalizing bs with
  | nil => simp only [checkNames, Except.ok.injEq] at h; subst h; simp
  | cons n ns ih =>
    unfold checkNames at h
    split at h
    · rename_i hn
      split at h
      · split at h
        · simp at h
        · rename_i bs' hbs
          simp only [Except.ok.injEq] at h; subst h
          obtain ⟨i1, i2⟩ := ih bs' hbs
          refine ⟨by simp [i1], ?_⟩
          intro k n' b hk hb
          cases k with
          | zero => simp only [List.getElem?_cons_zero, Option.some.injEq] at hk hb; subst hk hb; simp [hn]
          | succ k => simp only [List.getElem?_cons_succ] at hk hb; exact i2 k n' b hk hb
      · simp at h
    · rename_i hn
      split at h
      · simp at h
      · rename_i bs' hbs
        simp only [Except.ok.injEq] at h; subst h
        obtain ⟨i1, i2⟩ := ih bs' hbs
        refine ⟨by simp [i1], ?_⟩
        intro k n' b hk hb
        cases k with
        | zero => simp only [List.getElem?_cons_zero, Option.some.injEq] at hk hb; subst hk hb; simp [hn]
        | succ k => simp only [List.getElem?_cons_succ] at hk hb; exact i2 k n' b hk hb

theorem checkNames_succeeds (s : State K) (ov : Bool) (ns : List Name)
    (h : ov = true ∨ ∀ n ∈ ns, n ∉ s.all) : ∃ bs, checkNames s ov ns = .ok bs := by
  induction ns with
  | nil => exact ⟨[], rfl⟩
  | cons n ns ih =>
    obtain ⟨bs, hbs⟩ := ih (h.imp id (fun h m hm => h m (by simp [hm])))
    unfold checkNames
    rw [hbs]
    by_cases hn : n ∈ s.all
    · rcases h with h | h
      · simp [hn, h]
      · exact absurd hn (h n (by simp))
    · simp [hn]

theorem items_get (ns ms : List Name) (bs : List Bool) (as : List (Arr K)) (k : ℕ) :
    (items ns ms bs as)[k]? =
      (ns[k]?).bind fun n => (ms[k]?).bind fun m => (bs[k]?).bind fun b => (as[k]?).map fun a =>
        { name := n, newName := m, exists' := b, arr := a } := by
  induction ns generalizing ms bs as k with
  | nil => simp [items]
  | cons n ns ih =>
    cases ms with
    | nil => cases k <;> simp [items] 
    | cons m ms =>
      cases bs with
      | nil => cases k <;> simp [items]
      | cons b bs =>
        cases as with
        | nil => cases k <;> simp [items]
        | cons a as =>
          cases k with
          | zero => simp [items]
          | succ k => simp [items, ih]

theorem items_names (ns ms : List Name) (bs : List Bool) (as : List (Arr K))
    (h1 : ms.length = ns.length) (h2 : bs.length = ns.length) (h3 : as.length = ns.length) :
    (items ns ms bs as).map Item.newName = ms := by
  apply List.ext_getElem?
  intro k
  rw [List.getElem?_map, items_get]
  by_cases hk : k < ns.length
  · rw [List.getElem?_eq_getElem hk, List.getElem?_eq_getElem (by omega : k < ms.length),
      List.getElem?_eq_getElem (by omega : k < bs.length),
      List.getElem?_eq_getElem (by omega : k < as.length)]
    rfl
  · rw [List.getElem?_eq_none (by omega : ns.length ≤ k),
      List.getElem?_eq_none (by omega : ms.length ≤ k)]
    rfl

theorem evaluateAll_length [DivisionRing K] (m : MultiProp K) (s : State K) (u : Bool)
    (r : PyDict Name Name) (kw : PyDict Name K) (vals : List (Arr K))
    (h : evaluateAll m s u r kw = .ok vals) : vals.length = m.names.length := by
  unfold evaluateAll at h
  split at h
  · simp at h
  · split at h
    · simp at h
    · split at h
      · simp at h
      · split at h
        · simp at h
        · rename_i vals0 _ hl
          simp only [ne_eq, not_not] at hl
          split at h
          · simp only [Except.ok.injEq] at h; subst h; exact hl
          · split at h
            · split at h
              · rename_i he
                simp only [Except.ok.injEq] at h; subst h
                rw [← hl, he]
              · simp at h
            · rename_i hd _
              have key : ∀ (l : List (Name × Arr K)) out, toHUnits s.h hd m.tuple l = .ok out →
                  out.length = l.length := by
                intro l
                induction l with
                | nil => intro out h; simp only [toHUnits, Except.ok.injEq] at h; subst h; rfl
                | cons x l ih =>
                  intro out h
                  obtain ⟨n, a⟩ := x
                  unfold toHUnits at h
                  split at h
                  · simp at h
                  · split at h
                    · simp at h
                    · split at h
                      · simp at h
                      · rename_i out' ho
                        simp only [Except.ok.injEq] at h; subst h
                        simp [ih _ ho]
              rw [key _ _ h, List.length_zip, hl, Nat.min_self]

/-- A successful `make` without writing to disk. -/
theorem make_ok [DivisionRing K] (s s' : State K) (m : MultiProp K) (o : MakeOpts K)
    (hdisk : o.writeDisk = false) (hm : make s m o = (s', .ok ())) :
    ∃ exist vals, (o.rename.getD m.names).length = m.names.length ∧
      checkNames s o.overwrite (o.rename.getD m.names) = .ok exist ∧
      evaluateAll m s o.useAll o.remap o.otherKws = .ok vals ∧
      forEach (storeOne m.units m.hdep (inds s o.useAll)) s
        (items m.names (o.rename.getD m.names) exist vals) = (s', .ok ()) := by
  unfold make at hm
  dsimp only at hm
  simp only [hdisk, Bool.and_false, Bool.false_and, Bool.false_eq_true, if_false] at hm
  split at hm
  · simp at hm
  · rename_i names hnames
    obtain ⟨rfl, hl⟩ := makeNames_eq _ _ _ hnames
    split at hm
    · simp at hm
    · rename_i exist hex
      split at hm
      · simp at hm
      · rename_i vals hv
        split at hm
        · simp at hm
        · rename_i s1 h1
          simp only [Prod.mk.injEq, and_true] at hm
          subst hm
          exact ⟨exist, vals, hl, hex, hv, h1⟩

theorem gather_all {α : Type} (arr : List α) (n : ℕ) (h : arr.length = n) :
    gather arr (List.range n) = .ok arr := by subst h; exact gather_range arr

/-- Reading all objects in h units gives the held array. -/
theorem return_all_h [DivisionRing K] (s : State K) (hI : Inv s) (p : Name) (hp : p ∈ s.all)
    (hm : p ≠ "mass_cuts") (arr : List (V K)) (ha : held s p = some arr) :
    returnProperty s p true (some true) = .ok (some arr) := by
  obtain ⟨e, he⟩ := Option.isSome_iff_exists.1 (hI.hdepAll p hp)
  rw [returnProperty_held s p true (some true) hp e he hI.savedFile, ha]
  simp only [inds, if_true, gather_all arr s.nAll (held_length s hI p hm arr ha),
    Option.getD_some, scaleH]
  simp

/-- Reading depends only on these parts of the state. -/
theorem returnProperty_congr [DivisionRing K] (s s' : State K) (hb : SameBase s s') (q : Name)
    (hl : s'.loaded.get? q = s.loaded.get? q) (hh : s'.hdep.get? q = s.hdep.get? q)
    (ha : q ∈ s'.all ↔ q ∈ s.all) (u : Bool) (i : Option Bool) :
    returnProperty s' q u i = returnProperty s q u i := by
  unfold returnProperty
  simp only [hl, hh, ha, hb.inds, hb.file, hb.saved, hb.h, hb.inH]

end Verif.Handler
