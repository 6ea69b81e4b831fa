import Verif.Lemmas.Handler
import Verif.Spec.Handler

namespace Verif.Handler
open Spec

variable {K : Type}

/-- The array the handler currently holds for `p`: in memory, else in the file if saved. -/
def held (s : State K) (p : Name) : Option (List (V K)) :=
  match s.loaded.get? p with
  | some a => some a
  | none => if p ∈ s.saved then (s.file.get? p).map Dataset.vals else none

theorem returnProperty_held [DivisionRing K] (s : State K) (p : Name) (u : Bool) (i : Option Bool)
    (hp : p ∈ s.all) (e : ℤ) (he : s.hdep.get? p = some e) (hsv : ∀ q ∈ s.saved, (s.file.get? q).isSome) :
    returnProperty s p u i =
      match held s p with
      | none => .ok none
      | some arr =>
        match gather arr (inds s u) with
        | .error er => .error er
        | .ok vs => .ok (some (scaleH s.h (if i.getD s.inH then 0 else e) vs)) := by
  unfold returnProperty held
  dsimp only
  rw [if_pos hp]
  by_cases hi : i.getD s.inH = true
  · simp only [hi, if_true]
    cases s.loaded.get? p with
    | some a => rfl
    | none =>
      dsimp only
      by_cases hs : p ∈ s.saved
      · obtain ⟨d, hd⟩ := Option.isSome_iff_exists.1 (hsv p hs)
        simp [hs, hd]
        rfl
      · simp [hs]
  · simp only [hi, he, Bool.false_eq_true, if_false]
    cases s.loaded.get? p with
    | some a => rfl
    | none =>
      dsimp only
      by_cases hs : p ∈ s.saved
      · obtain ⟨d, hd⟩ := Option.isSome_iff_exists.1 (hsv p hs)
        simp [hs, hd]
        rfl
      · simp [hs]

theorem held_length (s : State K) (hI : Inv s) (p : Name) (hp : p ≠ "mass_cuts")
    (arr : List (V K)) (h : held s p = some arr) : arr.length = s.nAll := by
  unfold held at h
  split at h
  · rename_i a ha
    simp only [Option.some.injEq] at h
    subst h; exact hI.loadedLen p _ ha hp
  · split at h
    · obtain ⟨d, hd, rfl⟩ := Option.map_eq_some_iff.1 h
      exact hI.fileLen p d hd hp
    · simp at h

theorem inds_bound (s : State K) (hI : Inv s) (u : Bool) : ∀ i ∈ inds s u, i < s.nAll := by
  intro i hi
  cases u
  · exact hI.bound i hi
  · simpa [inds] using hi

theorem inds_nodup (s : State K) (hI : Inv s) (u : Bool) : (inds s u).Nodup := by
  cases u
  · exact hI.sorted.imp (fun h => Nat.ne_of_lt h)
  · exact List.nodup_range

theorem selection_eq (s : State K) (u : Bool) : selection s u = inds s u := rfl

theorem scaleH_seen [DivisionRing K] (h : K) (e : ℤ) (b : Bool) (vs : List (V K)) (j : ℕ) :
    (scaleH h (if b then 0 else e) vs)[j]? = (vs[j]?).map (seen h e b) := by
  rw [scaleH_get]
  cases b
  · simp
    congr 1
  · simp only [if_true, zpow_zero, mul_one]
    congr 1
    funext v
    cases v <;> simp [seen]

/-- Reading a held property succeeds and gives the held values of the selected objects. -/
theorem returnProperty_ok [DivisionRing K] (s : State K) (hI : Inv s) (p : Name) (u : Bool)
    (i : Option Bool) (hp : p ∈ s.all) (hm : p ≠ "mass_cuts") (e : ℤ)
    (he : s.hdep.get? p = some e) (arr : List (V K)) (ha : held s p = some arr) :
    ∃ out, returnProperty s p u i = .ok (some out) ∧ out.length = (inds s u).length ∧
      ∀ j : ℕ, out[j]? = ((inds s u)[j]?).bind
        (fun k => (arr[k]?).map (seen s.h e (i.getD s.inH))) := by
  obtain ⟨vs, h1, h2, h3⟩ := gather_ok arr (inds s u) (by
    intro k hk; rw [held_length s hI p hm arr ha]; exact inds_bound s hI u k hk)
  refine ⟨scaleH s.h (if i.getD s.inH then 0 else e) vs, ?_, ?_, ?_⟩
  · rw [returnProperty_held s p u i hp e he hI.savedFile, ha]
    simp only [h1]
  · rw [scaleH_length, h2]
  · intro j
    rw [scaleH_seen, h3 j]
    cases (inds s u)[j]? <;> simp

/-- Shape of any successful read. -/
theorem returnProperty_inv [DivisionRing K] (s : State K) (hI : Inv s) (p : Name) (u : Bool)
    (i : Option Bool) (out : List (V K)) (h : returnProperty s p u i = .ok (some out)) :
    p ∈ s.all ∧ ∃ e arr, s.hdep.get? p = some e ∧ held s p = some arr ∧
      gather arr (inds s u) ≠ .error .indexError ∧ out.length = (inds s u).length ∧
      (∀ k ∈ inds s u, k < arr.length) ∧
      ∀ j : ℕ, out[j]? = ((inds s u)[j]?).bind
        (fun k => (arr[k]?).map (seen s.h e (i.getD s.inH))) := by
  have hp : p ∈ s.all := by
    by_contra hc; simp [returnProperty, hc] at h
  obtain ⟨e, he⟩ := Option.isSome_iff_exists.1 (hI.hdepAll p hp)
  rw [returnProperty_held s p u i hp e he hI.savedFile] at h
  cases ha : held s p with
  | none => simp [ha] at h
  | some arr =>
    rw [ha] at h
    simp only at h
    cases hg : gather arr (inds s u) with
    | error er => simp [hg] at h
    | ok vs =>
      rw [hg] at h
      simp only [Except.ok.injEq, Option.some.injEq] at h
      obtain ⟨g1, g2, g3⟩ := gather_inv _ _ _ hg
      refine ⟨hp, e, arr, he, rfl, by rw [hg]; simp, by rw [← h, scaleH_length, g2], g1, ?_⟩
      intro j
      rw [← h, scaleH_seen, g3 j]
      cases (inds s u)[j]? <;> simp

/-! ### Properties nobody changes -/

/-- `p` is as it was in the file, whatever was loaded or unloaded. -/
structure Un (p : Name) (d : Dataset K) (e : ℤ) (h : K) (n : ℕ) (s : State K) : Prop where
  file : s.file.get? p = some d
  all : p ∈ s.all
  saved : p ∈ s.saved
  hdep : s.hdep.get? p = some e
  loaded : s.loaded.get? p = none ∨ s.loaded.get? p = some d.vals
  hh : s.h = h
  nn : s.nAll = n

theorem Un.held {p : Name} {d : Dataset K} {e : ℤ} {h : K} {n : ℕ} {s : State K}
    (H : Un p d e h n s) : held s p = some d.vals := by
  unfold Handler.held
  rcases H.loaded with h1 | h1
  · simp [h1, H.saved, H.file]
  · simp [h1]

theorem loadOne_un {p : Name} {d : Dataset K} {e : ℤ} {h : K} {n : ℕ} (s : State K) (q : Name)
    (H : Un p d e h n s) : Un p d e h n (loadOne s q).1 := by
  unfold loadOne
  split
  · split
    · exact H
    · rename_i d' hd'
      refine { H with loaded := ?_ }
      simp only [PyDict.get?_set]
      by_cases hq : q = p
      · subst hq
        rw [H.file] at hd'; cases hd'
        right; simp
      · simpa [hq] using H.loaded
  · exact H

theorem unload_un {p : Name} {d : Dataset K} {e : ℤ} {h : K} {n : ℕ} (s : State K) (qs : List Name)
    (H : Un p d e h n s) : Un p d e h n (unload s qs) := by
  refine { H with loaded := ?_ }
  simp only [unload, foldl_erase_get]
  split
  · left; rfl
  · exact H.loaded

theorem storeOne_un {p : Name} {d : Dataset K} {e : ℤ} {h : K} {n : ℕ} (u : PyDict Name String)
    (hd : Option (PyDict Name ℤ)) (is : List ℕ) (s : State K) (it : Item K) (hne : it.newName ≠ p)
    (H : Un p d e h n s) : Un p d e h n (storeOne u hd is s it).1 := by
  have hl : ∀ vals : List (V K), (s.loaded.set it.newName vals).get? p = none ∨
      (s.loaded.set it.newName vals).get? p = some d.vals := by
    intro vals; simpa [hne] using H.loaded
  unfold storeOne
  split
  · exact H
  · split
    · exact H
    · rename_i vals _
      dsimp only
      split
      · exact { H with loaded := hl vals }
      · split
        · exact { H with loaded := hl vals }
        · split
          · exact { H with loaded := hl vals }
          · split
            · exact { H with loaded := hl vals, hdep := by simpa [hne] using H.hdep }
            · exact { H with loaded := hl vals, hdep := by simpa [hne] using H.hdep
                             all := by simp [H.all] }

theorem writeOne_un {p : Name} {d : Dataset K} {e : ℤ} {h : K} {n : ℕ} (ov : Bool) (s : State K)
    (q : Name) (hne : q ≠ p) (H : Un p d e h n s) : Un p d e h n (writeOne ov s q).1 := by
  have hf : ∀ d' : Dataset K, (s.file.set q d').get? p = some d := by
    intro d'; simpa [hne] using H.file
  unfold writeOne
  split
  · exact H
  · split
    · exact H
    · dsimp only
      split
      · exact H
      · split
        · exact { H with file := hf _ }
        · split
          · exact { H with file := hf _ }
          · refine { H with file := hf _, saved := ?_ }
            dsimp only; split
            · exact H.saved
            · simp [H.saved]

theorem deleteOne_un {p : Name} {d : Dataset K} {e : ℤ} {h : K} {n : ℕ} (s : State K)
    (q : Name) (hne : q ≠ p) (H : Un p d e h n s) : Un p d e h n (deleteOne s q).1 := by
  unfold deleteOne
  split
  · split
    · exact H
    · have hf : (s.file.erase q).get? p = some d := by simp [hne, H.file]
      refine { H with file := hf, saved := ?_, all := ?_, hdep := ?_ }
      · simp [H.all]
        exact fun e => hne e.symm
      · dsimp only; rw [PyDict.mem_keys_iff]; simp [hf]
      · simp [hne, H.hdep]
  · exact H

theorem items_newName (ns ms : List Name) (bs : List Bool) (as : List (Arr K)) :
    ∀ it ∈ items ns ms bs as, it.newName ∈ ms := by
  induction ns generalizing ms bs as with
  | nil => intro it h; simp [items] at h
  | cons n ns ih =>
    intro it h
    cases ms with
    | nil => simp [items] at h
    | cons m ms =>
      cases bs with
      | nil => simp [items] at h
      | cons b bs =>
        cases as with
        | nil => simp [items] at h
        | cons a as =>
          simp only [items, List.mem_cons] at h
          rcases h with rfl | h
          · simp
          · simp [ih ms bs as it h]

theorem makeNames_eq (m : MultiProp K) (r : Option (List Name)) (names : List Name)
    (h : makeNames m r = .ok names) :
    names = r.getD m.names ∧ names.length = m.names.length := by
  cases r with
  | none => simp only [makeNames, Except.ok.injEq] at h; subst h; exact ⟨rfl, rfl⟩
  | some r =>
    simp only [makeNames] at h
    split at h
    · simp at h
    · rename_i hl
      simp only [Except.ok.injEq] at h
      subst h; exact ⟨rfl, by simpa using hl⟩

theorem make_un [DivisionRing K] {p : Name} {d : Dataset K} {e : ℤ} {h : K} {n : ℕ} (s : State K)
    (m : MultiProp K) (o : MakeOpts K)
    (hne : p ∉ o.rename.getD m.names)
    (H : Un p d e h n s) : Un p d e h n (make s m o).1 := by
  unfold make
  dsimp only
  split
  · exact H
  · split
    · exact H
    · split
      · exact H
      · split
        · exact H
        · rename_i _ names hnames _ exist _ _ vals _
          rw [← (makeNames_eq m o.rename names hnames).1] at hne
          have h1 := forEach_preserves (storeOne m.units m.hdep (inds s o.useAll)) (Un p d e h n)
            (items m.names names exist vals)
            (fun s x hx hs => storeOne_un _ _ _ s x
              (fun e => hne (e ▸ items_newName _ _ _ _ x hx)) hs) s H
          split
          · rename_i s1 e hs1; rw [hs1] at h1; exact h1
          · rename_i s1 hs1
            rw [hs1] at h1
            split
            · have h2 := forEach_preserves (writeOne o.overwriteDisk) (Un p d e h n) names
                (fun s x hx hs => writeOne_un _ s x (fun e => hne (e ▸ hx)) hs) s1 h1
              unfold write
              split
              · rename_i s2 e hs2; rw [hs2] at h2; exact h2
              · rename_i s2 hs2
                rw [hs2] at h2
                dsimp only
                split
                · exact unload_un _ _ h2
                · exact h2
            · exact h1

theorem setRange_fields [DivisionRing K] [LE K] [DecidableLE K] (s : State K) (p : Option Name)
    (lo hi : Option K) (r : Bool) (i : Option Bool) :
    ∃ a c, (setRange s p lo hi r i).1 = { s with active := a, nActive := c } := by
  unfold setRange
  split
  · exact ⟨_, _, rfl⟩
  · split
    · exact ⟨_, _, rfl⟩
    · exact ⟨_, _, rfl⟩
    · exact ⟨_, _, rfl⟩

theorem step_un [DivisionRing K] [LE K] [DecidableLE K] {p : Name} {d : Dataset K} {e : ℤ} {h : K}
    {n : ℕ} (s : State K) (op : Op K) (hop : ¬ changes p op) (H : Un p d e h n s) :
    Un p d e h n (step s op) := by
  cases op with
  | load ps => exact forEach_preserves _ _ ps (fun s x _ hs => loadOne_un s x hs) s H
  | unload ps => exact unload_un s ps H
  | ret q u i => exact H
  | make m o => exact make_un s m o hop H
  | write ps ov =>
    exact forEach_preserves _ _ ps (fun s x hx hs => writeOne_un ov s x (fun e => hop (by subst e; exact hx)) hs) s H
  | delete ps =>
    exact forEach_preserves _ _ ps (fun s x hx hs => deleteOne_un s x (fun e => hop (by subst e; exact hx)) hs) s H
  | range q lo hi r i =>
    obtain ⟨a, c, hac⟩ := setRange_fields s q lo hi r i
    simp only [step, hac]
    exact { H with }
  | setInH b => exact { H with }

theorem run_un [DivisionRing K] [LE K] [DecidableLE K] {p : Name} {d : Dataset K} {e : ℤ} {h : K}
    {n : ℕ} (s : State K) (ops : List (Op K)) (hops : ∀ op ∈ ops, ¬ changes p op)
    (H : Un p d e h n s) : Un p d e h n (run s ops) := by
  unfold run
  induction ops generalizing s with
  | nil => exact H
  | cons op ops ih =>
    exact ih _ (fun o ho => hops o (by simp [ho])) (step_un s op (hops op (by simp)) H)

theorem init_un (file : PyDict Name (Dataset K)) (n : ℕ) (hwf : WF file n) (h : K) (inH : Bool)
    (s : State K) (hs : init file h inH = .ok s) (p : Name) (d : Dataset K) (hp : p ≠ "mass_cuts")
    (hd : file.get? p = some d) : ∃ e, d.hdep = some e ∧ Un p d e h n s := by
  obtain ⟨s', hs', hf, hn, hh, -, hl, -, ha, hna, hall, hsv, hhd, hun, -⟩ :=
    init_ok file n hwf h inH
  rw [hs] at hs'; cases hs'
  obtain ⟨e, he⟩ := Option.isSome_iff_exists.1 (hwf.hdep p d (get?_mem _ _ _ hd) hp)
  refine ⟨e, he, by rw [hf, hd], (hall p).2 ⟨hp, by simp [hd]⟩, (hsv p).2 ⟨hp, by simp [hd]⟩, ?_, ?_,
    hh, hn⟩
  · rw [hhd p hp, hd]; exact he
  · left; rw [hl]; rfl

/-- A sorted list of numbers below `n` with the members given by a predicate is the filter. -/
theorem eq_filter_of_mem (l : List ℕ) (n : ℕ) (P : ℕ → Bool) (hs : l.Pairwise (· < ·))
    (hm : ∀ i, i ∈ l ↔ i < n ∧ P i = true) : l = (List.range n).filter P := by
  apply List.Perm.eq_of_pairwise (le := (· < ·))
  · intro a b _ _ h1 h2; omega
  · exact hs
  · exact List.Pairwise.filter _ List.pairwise_lt_range
  · rw [List.perm_ext_iff_of_nodup (hs.imp Nat.ne_of_lt) (List.nodup_range.filter _)]
    intro a; rw [hm a]; simp

end Verif.Handler
