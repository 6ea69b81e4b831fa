import Verif.Spec.Keys
import Verif.Props.HandlerRead
import Verif.Props.HandlerDisk

/-!
# C112: the lists of properties
-/

set_option linter.unusedSectionVars false

namespace Verif.Plot

open Verif.Handler
open Verif.Handler.Spec (Reachable selection WF)
open Verif.Plot.Spec

variable {K : Type}

/-- The four lists of a handler as `extract_keys` gives them. -/
theorem C112_keys (s : State K) : extractKeys s "any" = .ok s.all ∧ extractKeys s "loaded" = .ok s.loaded.keys ∧
    extractKeys s "saved" = .ok s.saved ∧ extractKeys s "generated" = .ok s.generated ∧
    ∀ set : String, set ∉ ["any", "loaded", "saved", "generated"] → extractKeys s set = .error .valueError := by
  refine ⟨rfl, rfl, rfl, rfl, ?_⟩
  intro set h
  simp only [List.mem_cons, List.not_mem_nil, or_false, not_or] at h
  simp [extractKeys, h]

structure KI (first : List Name) (s : State K) : Prop where
  allNd : s.all.Nodup
  savedNd : s.saved.Nodup
  genNd : s.generated.Nodup
  loadNd : s.loaded.keys.Nodup
  saved : ∀ p, p ∈ s.saved ↔ p ≠ "mass_cuts" ∧ (s.file.get? p).isSome = true
  all : ∀ p, p ∈ s.all ↔ p ∈ first ∨ p ∈ s.generated
  new : ∀ p ∈ s.generated, p ∉ first
  loaded : ∀ p, (s.loaded.get? p).isSome = true → p ∈ s.all
  inFile : ∀ p ∈ s.saved, p ∈ s.all
  units : ∀ p ∈ s.all, (s.units.get? p).isSome = true
  hdep : ∀ p ∈ s.all, (s.hdep.get? p).isSome = true
  reserved : "mass_cuts" ∉ s.all

theorem loadOne_ki {first : List Name} (s : State K) (p : Name) (h : KI first s) : KI first (loadOne s p).1 := by
  unfold loadOne
  split
  · rename_i hp
    split
    · exact h
    · refine { h with loadNd := PyDict.keys_set_nodup _ _ _ h.loadNd, loaded := ?_ }
      intro q hq
      simp only [PyDict.get?_set] at hq
      by_cases e : p = q
      · exact e ▸ h.inFile p hp
      · rw [if_neg e] at hq; exact h.loaded q hq
  · exact h

theorem unload_ki {first : List Name} (s : State K) (ps : List Name) (h : KI first s) : KI first (unload s ps) := by
  have hnd : ∀ (ps : List Name) (d : PyDict Name (List (V K))), d.keys.Nodup →
      (ps.foldl (fun d p => d.erase p) d).keys.Nodup := by
    intro ps
    induction ps with
    | nil => exact fun _ h => h
    | cons p ps ih => exact fun d hd => ih _ (PyDict.keys_erase_nodup _ _ hd)
  refine { h with loadNd := hnd ps _ h.loadNd, loaded := ?_ }
  intro q hq
  simp only [unload, foldl_erase_get] at hq
  by_cases e : q ∈ ps
  · simp [e] at hq
  · rw [if_neg e] at hq; exact h.loaded q hq

theorem writeOne_ki {first : List Name} (ov : Bool) (s : State K) (p : Name) (h : KI first s) :
    KI first (writeOne ov s p).1 := by
  unfold writeOne
  split
  · exact h
  · rename_i vals hv
    have hp : p ∈ s.all := h.loaded p (by rw [hv]; rfl)
    split
    · exact h
    · dsimp only
      split
      · exact h
      · split
        · rename_i hu
          have := h.units p hp
          rw [hu] at this; cases this
        · split
          · rename_i hu
            have := h.hdep p hp
            rw [hu] at this; cases this
          · have hmc : p ≠ "mass_cuts" := fun e => h.reserved (e ▸ hp)
            refine { h with savedNd := ?_, saved := ?_, inFile := ?_ }
            · dsimp only
              by_cases e : p ∈ s.saved
              · rw [if_pos e]; exact h.savedNd
              · rw [if_neg e]
                exact List.nodup_append.2 ⟨h.savedNd, (by simp : [_].Nodup), by
                  intro a ha b hb hab
                  rw [List.mem_singleton] at hb
                  exact e (hb ▸ hab ▸ ha)⟩
            · intro q
              dsimp only
              rw [PyDict.get?_set]
              by_cases e : p = q
              · subst e
                rw [if_pos rfl]
                by_cases e : p ∈ s.saved
                · rw [if_pos e]; simp [e, hmc]
                · rw [if_neg e]; simp [hmc]
              · rw [if_neg e, ← h.saved q]
                by_cases e' : p ∈ s.saved
                · rw [if_pos e']
                · rw [if_neg e']
                  simp [Ne.symm e]
            · intro q hq
              dsimp only at hq
              by_cases e' : p ∈ s.saved
              · rw [if_pos e'] at hq; exact h.inFile q hq
              · rw [if_neg e', List.mem_append, List.mem_singleton] at hq
                rcases hq with hq | rfl
                · exact h.inFile q hq
                · exact hp

theorem storeOne_ki {first : List Name} (u : PyDict Name String) (hd : Option (PyDict Name ℤ)) (is : List ℕ)
    (s : State K) (it : Item K) (h : KI first s) (hmc : it.newName ≠ "mass_cuts")
    (hu : (u.get? it.name).isSome = true) (hh : ∃ d, hd = some d ∧ (d.get? it.name).isSome = true)
    (hex : it.exists' = decide (it.newName ∈ s.all)) :
    KI first (storeOne u hd is s it).1 ∧
      ∀ p, p ≠ it.newName → (p ∈ (storeOne u hd is s it).1.all ↔ p ∈ s.all) := by
  obtain ⟨d, rfl, hd⟩ := hh
  obtain ⟨uu, huu⟩ := Option.isSome_iff_exists.1 hu
  obtain ⟨e, he⟩ := Option.isSome_iff_exists.1 hd
  unfold storeOne
  split
  · exact ⟨h, fun _ _ => Iff.rfl⟩
  · split
    · exact ⟨h, fun _ _ => Iff.rfl⟩
    · rename_i vals _
      simp only [huu, he]
      by_cases hin : it.newName ∈ s.all
      · rw [if_pos (by rw [hex]; exact decide_eq_true hin)]
        refine ⟨{ h with loadNd := PyDict.keys_set_nodup _ _ _ h.loadNd, loaded := ?_, units := ?_, hdep := ?_ },
          fun _ _ => Iff.rfl⟩
        · intro q hq
          simp only [PyDict.get?_set] at hq
          by_cases e : it.newName = q
          · exact e ▸ hin
          · rw [if_neg e] at hq; exact h.loaded q hq
        · intro q hq
          simp only [PyDict.get?_set]
          split
          · rfl
          · exact h.units q hq
        · intro q hq
          simp only [PyDict.get?_set]
          split
          · rfl
          · exact h.hdep q hq
      · rw [if_neg (by rw [hex]; simpa using hin)]
        have hg : it.newName ∉ s.generated := fun e => hin ((h.all _).2 (.inr e))
        have hf : it.newName ∉ first := fun e => hin ((h.all _).2 (.inl e))
        have app : ∀ l : List Name, l.Nodup → it.newName ∉ l → (l ++ [it.newName]).Nodup := by
          intro l hl hn
          refine List.nodup_append.2 ⟨hl, (by simp : [_].Nodup), ?_⟩
          intro a ha b hb hab
          rw [List.mem_singleton] at hb
          exact hn (hb ▸ hab ▸ ha)
        refine ⟨{ h with
          allNd := app _ h.allNd hin
          genNd := app _ h.genNd hg
          loadNd := PyDict.keys_set_nodup _ _ _ h.loadNd
          all := ?_, new := ?_, loaded := ?_, inFile := ?_, units := ?_, hdep := ?_, reserved := ?_ }, ?_⟩
        · intro p
          simp only [List.mem_append, List.mem_singleton, h.all p]
          tauto
        · intro p hp
          simp only [List.mem_append, List.mem_singleton] at hp
          rcases hp with hp | rfl
          · exact h.new p hp
          · exact hf
        · intro q hq
          simp only [PyDict.get?_set] at hq
          simp only [List.mem_append, List.mem_singleton]
          by_cases e : it.newName = q
          · exact .inr e.symm
          · rw [if_neg e] at hq; exact .inl (h.loaded q hq)
        · intro q hq
          exact List.mem_append_left _ (h.inFile q hq)
        · intro q hq
          simp only [List.mem_append, List.mem_singleton] at hq
          simp only [PyDict.get?_set]
          split
          · rfl
          · rename_i hne
            rcases hq with hq | hq
            · exact h.units q hq
            · exact absurd hq.symm hne
        · intro q hq
          simp only [List.mem_append, List.mem_singleton] at hq
          simp only [PyDict.get?_set]
          split
          · rfl
          · rename_i hne
            rcases hq with hq | hq
            · exact h.hdep q hq
            · exact absurd hq.symm hne
        · simp only [List.mem_append, List.mem_singleton, not_or]
          exact ⟨h.reserved, Ne.symm hmc⟩
        · intro p hp
          simp [hp]

theorem store_ki {first : List Name} (u : PyDict Name String) (hd : Option (PyDict Name ℤ)) (is : List ℕ) :
    ∀ (its : List (Item K)) (s : State K), KI first s → (its.map (fun it => it.newName)).Nodup →
    (∀ it ∈ its, it.newName ≠ "mass_cuts" ∧ (u.get? it.name).isSome = true ∧
      (∃ d, hd = some d ∧ (d.get? it.name).isSome = true) ∧ it.exists' = decide (it.newName ∈ s.all)) →
    KI first (forEach (storeOne u hd is) s its).1
  | [], s, h, _, _ => h
  | it :: its, s, h, hnd, hits => by
    rw [List.map_cons, List.nodup_cons] at hnd
    obtain ⟨h1, h2, h3, h4⟩ := hits it (by simp)
    obtain ⟨k1, k2⟩ := storeOne_ki u hd is s it h h1 h2 h3 h4
    simp only [forEach]
    rcases hs : storeOne u hd is s it with ⟨s', e | a⟩
    · rw [hs] at k1; exact k1
    · rw [hs] at k1 k2
      simp only
      refine store_ki u hd is its s' k1 hnd.2 ?_
      intro it' hit'
      obtain ⟨g1, g2, g3, g4⟩ := hits it' (List.mem_cons_of_mem _ hit')
      refine ⟨g1, g2, g3, ?_⟩
      have hne : it'.newName ≠ it.newName := fun e => hnd.1 (List.mem_map.2 ⟨it', hit', e⟩)
      rw [g4]
      exact decide_eq_decide.2 (k2 _ hne).symm

theorem items_mem (s : State K) (ov : Bool) : ∀ (ns ms : List Name) (bs : List Bool) (as : List (Arr K)),
    checkNames s ov ms = .ok bs → ∀ it ∈ items ns ms bs as,
      it.name ∈ ns ∧ it.newName ∈ ms ∧ it.exists' = decide (it.newName ∈ s.all)
  | [], _, _, _, _, it, h => by simp [items] at h
  | _ :: _, [], _, _, _, it, h => by simp [items] at h
  | _ :: _, _ :: _, [], _, _, it, h => by simp [items] at h
  | _ :: _, _ :: _, _ :: _, [], _, it, h => by simp [items] at h
  | n :: ns, m :: ms, b :: bs, a :: as, hc, it, h => by
    have hb : b = decide (m ∈ s.all) ∧ checkNames s ov ms = .ok bs := by
      unfold checkNames at hc
      by_cases hm : m ∈ s.all
      · rw [if_pos hm] at hc
        cases ov with
        | false => simp at hc
        | true =>
          simp only [if_true] at hc
          rcases hr : checkNames s true ms with e | bs'
          · rw [hr] at hc; cases hc
          · rw [hr] at hc
            simp only [Except.ok.injEq, List.cons.injEq] at hc
            exact ⟨by rw [← hc.1]; simp [hm], by rw [← hc.2]⟩
      · rw [if_neg hm] at hc
        rcases hr : checkNames s ov ms with e | bs'
        · rw [hr] at hc; cases hc
        · rw [hr] at hc
          simp only [Except.ok.injEq, List.cons.injEq] at hc
          exact ⟨by rw [← hc.1]; simp [hm], by rw [← hc.2]⟩
    simp only [items, List.mem_cons] at h
    rcases h with rfl | h
    · exact ⟨by simp, by simp, hb.1⟩
    · obtain ⟨h1, h2, h3⟩ := items_mem s ov ns ms bs as hb.2 it h
      exact ⟨List.mem_cons_of_mem _ h1, List.mem_cons_of_mem _ h2, h3⟩

theorem items_names : ∀ (ns ms : List Name) (bs : List Bool) (as : List (Arr K)),
    ((items ns ms bs as).map (fun it => it.newName)).Sublist ms
  | [], ms, _, _ => by simp [items]
  | _ :: _, [], _, _ => by simp [items]
  | _ :: _, _ :: _, [], _ => by simp [items]
  | _ :: _, _ :: _, _ :: _, [] => by simp [items]
  | n :: ns, m :: ms, b :: bs, a :: as => by
    simp only [items, List.map_cons]
    exact (items_names ns ms bs as).cons₂ m

theorem make_ki [DivisionRing K] [LE K] [DecidableLE K] {first : List Name} (s : State K) (m : MultiProp K)
    (o : MakeOpts K) (hp : Plain (.make m o)) (h : KI first s) : KI first (make s m o).1 := by
  obtain ⟨p1, p2, p3⟩ := hp
  unfold make
  dsimp only
  split
  · exact h
  · split
    · exact h
    · rename_i names hnames
      have hn : names = o.rename.getD m.names := by
        unfold makeNames at hnames
        rcases hr : o.rename with _ | r
        · rw [hr] at hnames
          simp only [Except.ok.injEq] at hnames
          exact hnames.symm
        · rw [hr] at hnames
          simp only at hnames
          by_cases hl : r.length ≠ m.names.length
          · rw [if_pos hl] at hnames; cases hnames
          · rw [if_neg hl] at hnames
            simp only [Except.ok.injEq] at hnames
            exact hnames.symm
      rw [← hn] at p1 p2
      split
      · exact h
      · rename_i exist hexist
        split
        · exact h
        · rename_i vals _
          have h1 := store_ki m.units m.hdep (inds s o.useAll) (items m.names names exist vals) s h
            ((items_names _ _ _ _).nodup p1) (by
              intro it hit
              obtain ⟨a1, a2, a3⟩ := items_mem s o.overwrite _ _ _ _ hexist it hit
              exact ⟨fun e => p2 (e ▸ a2), (p3 _ a1).1, (p3 _ a1).2, a3⟩)
          split
          · rename_i s1 e hs1; rw [hs1] at h1; exact h1
          · rename_i s1 hs1
            rw [hs1] at h1
            split
            · have h2 : KI first (write s1 names o.overwriteDisk).1 :=
                forEach_preserves _ (KI first) names (fun s x _ hs => writeOne_ki _ s x hs) s1 h1
              split
              · rename_i s2 e hs2; rw [hs2] at h2; exact h2
              · rename_i s2 hs2
                rw [hs2] at h2
                dsimp only
                split
                · exact unload_ki s2 names h2
                · exact h2
            · exact h1

theorem run_ki [DivisionRing K] [LE K] [DecidableLE K] {first : List Name} :
    ∀ (ops : List (Op K)) (s : State K), (∀ op ∈ ops, Plain op) → KI first s → KI first (run s ops)
  | [], s, _, h => h
  | op :: ops, s, hp, h => by
    have hrun : run s (op :: ops) = run (step s op) ops := rfl
    rw [hrun]
    refine run_ki ops _ (fun o ho => hp o (List.mem_cons_of_mem _ ho)) ?_
    have hpo := hp op (by simp)
    cases op with
    | load ps => exact forEach_preserves _ _ ps (fun s x _ hs => loadOne_ki s x hs) _ h
    | unload ps => exact unload_ki _ ps h
    | ret q u i => exact h
    | make m o => exact make_ki _ m o hpo h
    | write ps ov => exact forEach_preserves _ _ ps (fun s x _ hs => writeOne_ki ov s x hs) _ h
    | delete ps => exact hpo.elim
    | range q lo hi r i =>
      obtain ⟨a, c, hac⟩ := setRange_fields s q lo hi r i
      simp only [step, hac]
      exact { h with }
    | setInH b => exact { h with }

/-- The lists of properties describe the handler after any calls that do not delete anything, also after calls that
failed: the properties that were in the file at the beginning and those made since. -/
theorem C112_lists_partial [DivisionRing K] [LE K] [DecidableLE K] (file : PyDict Name (Dataset K)) (n : ℕ)
    (hwf : WF file n) (h : K) (inH : Bool) (s0 : State K) (h0 : init file h inH = .ok s0) (ops : List (Op K))
    (hops : ∀ op ∈ ops, Plain op) :
    ∃ l : Lists K, extractKeys (run s0 ops) "any" = .ok l.any ∧ extractKeys (run s0 ops) "loaded" = .ok l.loaded ∧
      extractKeys (run s0 ops) "saved" = .ok l.saved ∧ extractKeys (run s0 ops) "generated" = .ok l.generated ∧
      Correct (file.keys.filter (fun p => decide (p ≠ "mass_cuts"))) (run s0 ops).file.keys l := by
  obtain ⟨s', hs', hf, hn, -, -, hl, hg, -, -, hall, hsv, hhd, hun, has⟩ := init_ok file n hwf h inH
  rw [h0] at hs'
  simp only [Except.ok.injEq] at hs'
  subst hs'
  have hnd : s0.all.Nodup := by
    unfold init at h0
    dsimp only at h0
    split at h0
    · cases h0
    · split at h0
      · cases h0
      · split at h0
        · cases h0
        · simp only [Except.ok.injEq] at h0
          rw [← h0]
          have := hwf.nodup
          unfold PyDict.keys at this
          exact (List.Sublist.map Prod.fst (List.filter_sublist (l := file))).nodup this
  have hI := inv_init file n hwf h inH s0 h0
  have ki : KI (file.keys.filter (fun p => decide (p ≠ "mass_cuts"))) s0 :=
    { allNd := hnd
      savedNd := has ▸ hnd
      genNd := by rw [hg]; exact List.nodup_nil
      loadNd := by rw [hl]; exact List.nodup_nil
      saved := by intro p; rw [hsv, hf]
      all := by
        intro p
        rw [hall, hg]
        simp only [List.mem_filter, decide_eq_true_eq, List.not_mem_nil, or_false, PyDict.mem_keys_iff]
        exact and_comm
      new := by rw [hg]; simp
      loaded := by rw [hl]; simp
      inFile := by rw [has]; exact fun _ h => h
      units := hI.unitsAll
      hdep := hI.hdepAll
      reserved := by rw [hall]; simp }
  have k := run_ki ops s0 hops ki
  refine ⟨⟨_, _, _, _⟩, rfl, rfl, rfl, rfl, ⟨k.allNd, k.loadNd, k.savedNd, k.genNd⟩, ?_, k.all, k.new, ?_, k.inFile⟩
  · intro p
    rw [PyDict.mem_keys_iff]
    dsimp only
    rw [k.saved]
    exact and_comm
  · intro p hp
    exact k.loaded p ((PyDict.mem_keys_iff _ _).1 hp)

/-- After a property has been deleted the table of masses, if the file has one, is listed as a saved property, although
it is none. -/
theorem C112_delete_lists_mass_cuts (s : State K) (p : Name) (ps : List Name)
    (hok : (delete s (p :: ps)).2 = .ok ()) (hmc : (s.file.get? "mass_cuts").isSome = true)
    (hno : "mass_cuts" ∉ p :: ps) (hall : "mass_cuts" ∉ s.all) :
    ∃ l l', extractKeys (delete s (p :: ps)).1 "saved" = .ok l ∧ "mass_cuts" ∈ l ∧
      extractKeys (delete s (p :: ps)).1 "any" = .ok l' ∧ "mass_cuts" ∉ l' := by
  have one : ∀ (s : State K) (q : Name), (deleteOne s q).2 = .ok () → q ≠ "mass_cuts" →
      (s.file.get? "mass_cuts").isSome = true → "mass_cuts" ∉ s.all →
      ((deleteOne s q).1.file.get? "mass_cuts").isSome = true ∧ "mass_cuts" ∈ (deleteOne s q).1.saved ∧
        "mass_cuts" ∉ (deleteOne s q).1.all := by
    intro s q h hq hm ha
    unfold deleteOne at h ⊢
    by_cases hs : q ∈ s.saved
    · rw [if_pos hs] at h ⊢
      rcases hf : s.file.get? q with _ | d
      · rw [hf] at h; cases h
      · simp only
        have hm' : ((s.file.erase q).get? "mass_cuts").isSome = true := by
          rw [PyDict.get?_erase, if_neg hq]; exact hm
        refine ⟨hm', (PyDict.mem_keys_iff _ _).2 hm', ?_⟩
        simp [ha]
    · rw [if_neg hs] at h; cases h
  have many : ∀ (ps : List Name) (s : State K), (forEach deleteOne s ps).2 = .ok () → "mass_cuts" ∉ ps →
      (s.file.get? "mass_cuts").isSome = true → "mass_cuts" ∈ s.saved → "mass_cuts" ∉ s.all →
      "mass_cuts" ∈ (forEach deleteOne s ps).1.saved ∧ "mass_cuts" ∉ (forEach deleteOne s ps).1.all := by
    intro ps
    induction ps with
    | nil => intro s _ _ _ h1 h2; exact ⟨h1, h2⟩
    | cons q ps ih =>
      intro s h hq hm h1 h2
      simp only [forEach] at h ⊢
      rw [List.mem_cons, not_or] at hq
      rcases hd : deleteOne s q with ⟨s', e | a⟩
      · rw [hd] at h; cases h
      · rw [hd] at h
        obtain ⟨o1, o2, o3⟩ := one s q (by rw [hd]) (Ne.symm hq.1) hm h2
        rw [hd] at o1 o2 o3
        exact ih s' h hq.2 o1 o2 o3
  unfold delete at hok ⊢
  simp only [forEach] at hok ⊢
  rw [List.mem_cons, not_or] at hno
  rcases hd : deleteOne s p with ⟨s', e | a⟩
  · rw [hd] at hok; cases hok
  · rw [hd] at hok
    obtain ⟨o1, o2, o3⟩ := one s p (by rw [hd]) (Ne.symm hno.1) hmc hall
    rw [hd] at o1 o2 o3
    obtain ⟨m1, m2⟩ := many ps s' hok hno.2 o1 o2 o3
    exact ⟨_, _, rfl, m1, rfl, m2⟩

/-- A property that was in memory, or made, when it was deleted stays in the lists of loaded and of made properties;
the handler says that it does not have it. -/
theorem C112_delete_stays (s : State K) (p : Name) (hok : (delete s [p]).2 = .ok ()) :
    hasProperty (delete s [p]).1 p = false ∧
    (p ∈ s.loaded.keys → ∃ l, extractKeys (delete s [p]).1 "loaded" = .ok l ∧ p ∈ l) ∧
    (p ∈ s.generated → ∃ l, extractKeys (delete s [p]).1 "generated" = .ok l ∧ p ∈ l) := by
  unfold delete at hok ⊢
  simp only [forEach] at hok ⊢
  unfold deleteOne at hok ⊢
  by_cases hs : p ∈ s.saved
  · rw [if_pos hs] at hok ⊢
    rcases hf : s.file.get? p with _ | d
    · rw [hf] at hok; cases hok
    · simp only
      refine ⟨by simp [hasProperty], fun h => ⟨_, rfl, h⟩, fun h => ⟨_, rfl, h⟩⟩
  · rw [if_neg hs] at hok; cases hok

/-- The list that is returned is the handler's own: a name that the user appends to it is a property from then on, but
its values are `None`, or an exception is raised. -/
theorem C112_list_is_shared [DivisionRing K] (s : State K) (p : Name) (hl : s.loaded.get? p = none)
    (hs : p ∉ s.saved) (hh : s.hdep.get? p = none) (u : Bool) :
    hasProperty (appendTo s "any" p) p = true ∧ returnProperty (appendTo s "any" p) p u (some true) = .ok none ∧
      returnProperty (appendTo s "any" p) p u (some false) = .error .keyError := by
  have e : appendTo s "any" p = { s with all := s.all ++ [p] } := rfl
  rw [e]
  refine ⟨by simp [hasProperty], ?_, ?_⟩
  · simp [returnProperty, hl, hs]
  · simp [returnProperty, hh]

/-- Appended to the list of saved properties the name of a property in memory can no longer be written without
`overwrite`, although the file does not have it. -/
theorem C112_saved_is_shared (s : State K) (p : Name) (v : List (V K)) (hl : s.loaded.get? p = some v) :
    write (appendTo s "saved" p) [p] false = (appendTo s "saved" p, .error .valueError) := by
  have e : appendTo s "saved" p = { s with saved := s.saved ++ [p] } := rfl
  rw [e]
  simp [write, forEach, writeOne, hl]

/-- The whole property, also with deletions. -/
def C112_full : Prop :=
  ∀ s : State ℚ, Reachable s → (∀ l, extractKeys s "saved" = .ok l → ∀ p, p ∈ l ↔ p ∈ s.file.keys ∧ p ≠ "mass_cuts") ∧
    (∀ l l', extractKeys s "loaded" = .ok l → extractKeys s "any" = .ok l' → ∀ p ∈ l, p ∈ l')

theorem C112_full_false : ¬ C112_full := by
  intro H
  have h := (H (run demo0 [.load ["sfr"], .delete ["sfr"]]) (demo0_reachable _)).2 _ _ rfl rfl "sfr"
    (by decide +kernel)
  exact absurd h (by decide +kernel)

/-- A history with properties made, written, unloaded and calls that fail. -/
example : ∀ op ∈ ([.make doubleMass plainOpts, .write ["mass2", "none"] false, .unload ["mass2"], .load ["mass2"],
    .make doubleMass plainOpts] : List (Op ℚ)), Plain op := by
  intro op hop
  simp only [List.mem_cons, List.not_mem_nil, or_false] at hop
  have hm : Plain (Op.make doubleMass plainOpts : Op ℚ) := by
    refine ⟨by decide, by decide, ?_⟩
    intro p hp
    have : p = "mass2" := by simpa [doubleMass] using hp
    subst this
    exact ⟨by decide, _, rfl, by decide⟩
  rcases hop with rfl | rfl | rfl | rfl | rfl
  · exact hm
  · trivial
  · trivial
  · trivial
  · exact hm

example : (run demo0 [.make doubleMass plainOpts, .write ["mass2", "none"] false, .unload ["mass2"], .load ["mass2"],
    .make doubleMass plainOpts]).generated = ["mass2"] ∧
    (run demo0 [.make doubleMass plainOpts, .write ["mass2", "none"] false]).saved.length = 3 := by
  decide +kernel

/-- A file with a table of masses from which a property is deleted. -/
example : (delete demo0 ["sfr"]).2 = .ok () ∧ (demo0.file.get? "mass_cuts").isSome = true ∧
    (delete demo0 ["sfr"]).1.saved = ["mass", "mass_cuts"] := by decide +kernel

end Verif.Plot
