import Verif.Lemmas.HandlerShared
import Verif.Props.HandlerDisk

/-!
# C133: several handlers on one file
-/

set_option linter.unusedSectionVars false

namespace Verif.Handler
open Spec

variable {K : Type}

/-! ## Opening a file that others have changed -/

theorem readAttrs_has {α : Type} (attr : Dataset K → Option α) (l : PyDict Name (Dataset K)) (out : PyDict Name α)
    (h : readAttrs attr l = .ok out) : out.map (·.1) = l.map (·.1) := by
  induction l generalizing out with
  | nil => simp only [readAttrs, Except.ok.injEq] at h; subst h; rfl
  | cons q l ih =>
    obtain ⟨k, d⟩ := q
    unfold readAttrs at h
    split at h
    · simp at h
    · split at h
      · simp at h
      · rename_i out' ho
        simp only [Except.ok.injEq] at h
        subst h
        simp [ih out' ho]

theorem opened [DivisionRing K] (file : PyDict Name (Dataset K)) (n : ℕ)
    (hl : ∀ p d, file.get? p = some d → p ≠ "mass_cuts" → d.vals.length = n) (h : K) (inH : Bool) (s : State K)
    (h0 : init file h inH = .ok s) :
    Whole n h s ∧ s.file = file ∧ ∀ p d, p ≠ "mass_cuts" → file.get? p = some d →
      ∃ e, d.hdep = some e ∧ Un p d e h n s := by
  have h0' := h0
  unfold init at h0
  dsimp only at h0
  split at h0
  · simp at h0
  · rename_i u hu
    split at h0
    · simp at h0
    · rename_i hd' hhd
      split at h0
      · simp at h0
      · rename_i m hm
        simp only [Except.ok.injEq] at h0
        subst h0
        have hmn : m.vals.length = n := hl "mass" m hm (by decide)
        refine ⟨⟨hmn, rfl, ?_, ?_, ?_, ?_, List.pairwise_lt_range, ?_, by simp⟩, rfl, ?_⟩
        · intro p d hp hne; rw [hl p d hp hne]; exact hmn.symm
        · intro p v hp; simp at hp
        · intro p hp
          have := readAttrs_has _ _ _ hhd
          have hk := PyDict.mem_keys_iff hd' p
          unfold PyDict.keys at hk
          rw [this] at hk
          exact hk.1 hp
        · intro p hp
          have := readAttrs_has _ _ _ hu
          have hk := PyDict.mem_keys_iff u p
          unfold PyDict.keys at hk
          rw [this] at hk
          exact hk.1 hp
        · intro i hi; simpa using hi
        · intro p d hp hd
          obtain ⟨e, he, -⟩ := init_reads file h inH _ h0' p d hp hd (by
            intro m' hm'; rw [hl p d hd hp, hl "mass" m' hm' (by decide)])
          have hget := readAttrs_get _ _ _ hhd p
          rw [get?_props, if_neg hp, hd] at hget
          have hmem : p ∈ (file.filter (fun q => decide (q.1 ≠ "mass_cuts"))).map (·.1) := by
            have := PyDict.mem_keys_iff (file.filter (fun q => decide (q.1 ≠ "mass_cuts"))) p
            unfold PyDict.keys at this
            rw [this, get?_props, if_neg hp, hd]
            rfl
          exact ⟨e, he, hd, hmem, hmem, by rw [hget]; exact he, .inl rfl, rfl, hmn⟩

variable [DivisionRing K] [LE K] [DecidableLE K]

/-- Every handler has the size and the h of the file, and so has every property in the file. -/
structure Sound (n : ℕ) (h : K) (w : World K) : Prop where
  hh : w.h = h
  file : ∀ p d, w.file.get? p = some d → p ≠ "mass_cuts" → d.vals.length = n
  each : ∀ i s, w.hs i = some s → Whole n h { s with file := w.file }

theorem turn_sound (n : ℕ) (h : K) (w : World K) (i : ℕ) (t : Turn K) (H : Sound n h w) : Sound n h (w.turn i t) := by
  cases t with
  | «open» inH extra =>
    unfold World.turn
    dsimp only
    rcases h0 : init w.file w.h inH with e | s
    · exact H
    · obtain ⟨h1, h2, -⟩ := opened w.file n H.file w.h inH s h0
      refine ⟨H.hh, H.file, ?_⟩
      intro j s' hj
      dsimp only at hj ⊢
      split at hj
      · simp only [Option.some.injEq] at hj
        subst hj
        rw [H.hh] at h1
        have : ({ s with extra := extra, file := w.file } : State K) = { s with extra := extra } := by rw [← h2]
        rw [this]
        exact { h1 with }
      · exact H.each j s' hj
  | call op =>
    unfold World.turn World.view
    rcases hv : w.hs i with _ | s
    · exact H
    · dsimp only [Option.map_some]
      have h1 := step_whole _ op (H.each i s hv)
      have hf : ∀ p d, (step { s with file := w.file } op).file.get? p = some d → p ≠ "mass_cuts" → d.vals.length = n := by
        intro p d hp hne
        rw [h1.fileLen p d hp hne, h1.nn]
      refine ⟨H.hh, hf, ?_⟩
      intro j s' hj
      dsimp only at hj ⊢
      split at hj
      · simp only [Option.some.injEq] at hj
        subst hj
        exact h1
      · have h2 := H.each j s' hj
        refine { h2 with fileLen := ?_ }
        intro p d hp hne
        have := h2.nn
        dsimp only at this ⊢
        rw [this]
        exact hf p d hp hne

theorem run_sound (n : ℕ) (h : K) (w : World K) (ts : List (ℕ × Turn K)) (H : Sound n h w) : Sound n h (w.run ts) := by
  unfold World.run
  induction ts generalizing w with
  | nil => exact H
  | cons t ts ih => exact ih _ (turn_sound n h w t.1 t.2 H)

theorem start_sound (file : PyDict Name (Dataset K)) (n : ℕ) (hwf : WF file n) (h : K) :
    Sound n h (World.start file h) :=
  ⟨rfl, hwf.lengths, fun i s hs => by simp [World.start] at hs⟩

theorem Sound.view {n : ℕ} {h : K} {w : World K} (H : Sound n h w) {i : ℕ} {s : State K} (hs : w.view i = some s) :
    Whole n h s ∧ s.file = w.file := by
  unfold World.view at hs
  obtain ⟨s', h1, rfl⟩ := Option.map_eq_some_iff.1 hs
  exact ⟨H.each i s' h1, rfl⟩

/-! ## Rows stay aligned -/

/-- C133.  However many handlers are opened on a file and whatever is done through them, in whatever order: each handler
has as many objects as the file was made with, its active objects are distinct objects of the file, and what it returns for
the active objects is those rows of what it returns for all objects. -/
theorem C133_rows (file : PyDict Name (Dataset K)) (n : ℕ) (hwf : WF file n) (h : K) (ts : List (ℕ × Turn K)) (i : ℕ)
    (s : State K) (hs : ((World.start file h).run ts).view i = some s) :
    s.nAll = n ∧ s.active.Pairwise (· < ·) ∧ (∀ k ∈ s.active, k < n) ∧ s.nActive = s.active.length ∧
    ∀ (p : Name) (b : Option Bool) (act : List (V K)), p ≠ "mass_cuts" → returnProperty s p false b = .ok (some act) →
      ∃ full, returnProperty s p true b = .ok (some full) ∧ full.length = n ∧ act.length = s.nActive ∧
        ∀ (j k : ℕ), s.active[j]? = some k → act[j]? = full[k]? := by
  obtain ⟨hW, -⟩ := (run_sound n h _ ts (start_sound file n hwf h)).view hs
  refine ⟨hW.nn, hW.sorted, fun k hk => hW.nn ▸ hW.bound k hk, hW.count, ?_⟩
  intro p b act hp hact
  have hI := live_inv hW
  have hhas := read_has s p false b act hact
  rw [← read_live s p false b hhas] at hact
  obtain ⟨hall, e, arr, he, ha, -, hlen, hbd, hget⟩ := returnProperty_inv _ hI p false b act hact
  obtain ⟨full, f1, f2, f3⟩ := returnProperty_ok _ hI p true b hall hp e he arr ha
  have hl : (live s).nAll = s.nAll := rfl
  refine ⟨full, by rw [← read_live s p true b hhas]; exact f1, ?_, by rw [hlen, hW.count]; rfl, ?_⟩
  · rw [f2, ← hW.nn]; simp [inds, hl]
  · intro j k hj
    have hk : k < s.nAll := hW.bound k (List.mem_of_getElem? hj)
    have h1 : (inds (live s) false)[j]? = some k := hj
    have h2 : (inds (live s) true)[k]? = some k := by simp [inds, hl, hk]
    rw [hget j, f3 k, h1, h2]

/-! ## What is read -/

/-- C133.  A handler that lists a property, takes it to be in the file and has not loaded it, returns the values that are in the
file at that moment, whoever wrote them — multiplied by the power of h that the handler has on record for the property. -/
theorem C133_reads (file : PyDict Name (Dataset K)) (n : ℕ) (hwf : WF file n) (h : K) (ts : List (ℕ × Turn K)) (i : ℕ)
    (s : State K) (hs : ((World.start file h).run ts).view i = some s) (p : Name) (hp : p ≠ "mass_cuts")
    (hall : p ∈ s.all) (hsv : p ∈ s.saved) (hl : s.loaded.get? p = none) (d : Dataset K)
    (hd : ((World.start file h).run ts).file.get? p = some d) (u : Bool) (b : Option Bool) :
    ∃ e out, s.hdep.get? p = some e ∧ returnProperty s p u b = .ok (some out) ∧
      out.length = (selection s u).length ∧
      ∀ (j k : ℕ), (selection s u)[j]? = some k → out[j]? = (d.vals[k]?).map (seen h e (b.getD s.inH)) := by
  obtain ⟨hW, hf⟩ := (run_sound n h _ ts (start_sound file n hwf h)).view hs
  rw [← hf] at hd
  have hI := live_inv hW
  obtain ⟨e, he⟩ := Option.isSome_iff_exists.1 (hW.hdepAll p hall)
  have hh : held (live s) p = some d.vals := by
    unfold held live
    dsimp only
    rw [hl]
    dsimp only
    rw [if_pos (List.mem_filter.2 ⟨hsv, by simp [hd]⟩), hd]
    rfl
  obtain ⟨out, o1, o2, o3⟩ := returnProperty_ok _ hI p u b hall hp e he _ hh
  rw [read_live s p u b (.inr (by simp [hd]))] at o1
  refine ⟨e, out, he, o1, o2, ?_⟩
  intro j k hj
  have h1 : (inds (live s) u)[j]? = some k := hj
  have h2 : (live s).h = h := hW.hh
  have h3 : (live s).inH = s.inH := rfl
  rw [o3 j, h1, h2, h3]
  rfl

/-- The property is as it was in every handler. -/
structure AllUn (p : Name) (d : Dataset K) (e : ℤ) (h : K) (n : ℕ) (w : World K) : Prop where
  sound : Sound n h w
  file : w.file.get? p = some d
  each : ∀ i s, w.hs i = some s → Un p d e h n { s with file := w.file }

theorem turn_allUn {p : Name} (hp : p ≠ "mass_cuts") {d : Dataset K} {e : ℤ} (he : d.hdep = some e) {h : K} {n : ℕ}
    (w : World K) (i : ℕ) (t : Turn K) (ht : ¬ turnChanges p t) (H : AllUn p d e h n w) : AllUn p d e h n (w.turn i t) := by
  have hs := turn_sound n h w i t H.sound
  cases t with
  | «open» inH extra =>
    unfold World.turn at hs ⊢
    dsimp only at hs ⊢
    rcases h0 : init w.file w.h inH with e' | s
    · exact H
    · rw [h0] at hs
      obtain ⟨-, h2, h3⟩ := opened w.file n H.sound.file w.h inH s h0
      refine ⟨hs, H.file, ?_⟩
      intro j s' hj
      dsimp only at hj ⊢
      split at hj
      · simp only [Option.some.injEq] at hj
        subst hj
        obtain ⟨e', he', hu⟩ := h3 p d hp H.file
        rw [he] at he'
        cases he'
        rw [H.sound.hh] at hu
        have : ({ s with extra := extra, file := w.file } : State K) = { s with extra := extra } := by rw [← h2]
        rw [this]
        exact { hu with }
      · exact H.each j s' hj
  | call op =>
    unfold World.turn World.view at hs ⊢
    rcases hv : w.hs i with _ | s
    · exact H
    · rw [hv] at hs
      dsimp only [Option.map_some] at hs ⊢
      have h1 := step_un _ op ht (H.each i s hv)
      refine ⟨hs, h1.file, ?_⟩
      intro j s' hj
      dsimp only at hj ⊢
      split at hj
      · simp only [Option.some.injEq] at hj
        subst hj
        exact h1
      · have h2 := H.each j s' hj
        exact { h2 with file := h1.file }

theorem run_allUn {p : Name} (hp : p ≠ "mass_cuts") {d : Dataset K} {e : ℤ} (he : d.hdep = some e) {h : K} {n : ℕ}
    (w : World K) (ts : List (ℕ × Turn K)) (ht : ∀ t ∈ ts, ¬ turnChanges p t.2) (H : AllUn p d e h n w) :
    AllUn p d e h n (w.run ts) := by
  unfold World.run
  induction ts generalizing w with
  | nil => exact H
  | cons t ts ih =>
    exact ih _ (fun x hx => ht x (by simp [hx])) (turn_allUn hp he w t.1 t.2 (ht t (by simp)) H)

/-- C133.  A property of the file that no call makes, writes or deletes is returned by every handler, whenever it was opened, with the
values and the power of h that are in the file, for the objects selected in that handler. -/
theorem C133_untouched (file : PyDict Name (Dataset K)) (n : ℕ) (hwf : WF file n) (h : K) (ts : List (ℕ × Turn K))
    (p : Name) (hp : p ≠ "mass_cuts") (d : Dataset K) (hd : file.get? p = some d)
    (ht : ∀ t ∈ ts, ¬ turnChanges p t.2) (i : ℕ) (s : State K)
    (hs : ((World.start file h).run ts).view i = some s) (u : Bool) (b : Option Bool) :
    ∃ e out, d.hdep = some e ∧ returnProperty s p u b = .ok (some out) ∧ out.length = (selection s u).length ∧
      ∀ (j k : ℕ), (selection s u)[j]? = some k → out[j]? = (d.vals[k]?).map (seen h e (b.getD s.inH)) := by
  obtain ⟨e, he⟩ := Option.isSome_iff_exists.1 (hwf.hdep p d (get?_mem _ _ _ hd) hp)
  have HA : AllUn p d e h n ((World.start file h).run ts) := run_allUn hp he _ ts ht
    ⟨start_sound file n hwf h, hd, fun i s hs => by simp [World.start] at hs⟩
  obtain ⟨hW, hf⟩ := HA.sound.view hs
  have hu : Un p d e h n s := by
    unfold World.view at hs
    obtain ⟨s', h1, rfl⟩ := Option.map_eq_some_iff.1 hs
    exact HA.each i s' h1
  have hI := live_inv hW
  have hh : held (live s) p = some d.vals := by
    unfold held live
    dsimp only
    rcases hu.loaded with h1 | h1
    · rw [h1]
      dsimp only
      rw [if_pos (List.mem_filter.2 ⟨hu.saved, by simp [hu.file]⟩), hu.file]
      rfl
    · rw [h1]
  obtain ⟨out, o1, o2, o3⟩ := returnProperty_ok _ hI p u b hu.all hp e hu.hdep _ hh
  rw [read_live s p u b (.inr (by simp [hu.file]))] at o1
  refine ⟨e, out, he, o1, o2, ?_⟩
  intro j k hj
  have h1 : (inds (live s) u)[j]? = some k := hj
  have h2 : (live s).h = h := hW.hh
  have h3 : (live s).inH = s.inH := rfl
  rw [o3 j, h1, h2, h3]
  rfl

/-! ## What a handler knows of the others -/

theorem turn_other (w : World K) (i j : ℕ) (hij : i ≠ j) (t : Turn K) : (w.turn i t).hs j = w.hs j := by
  have hji : j ≠ i := fun e => hij e.symm
  cases t with
  | «open» inH extra =>
    unfold World.turn
    dsimp only
    split
    · rfl
    · dsimp only; rw [if_neg hji]
  | call op =>
    unfold World.turn
    dsimp only
    split
    · rfl
    · dsimp only; rw [if_neg hji]

/-- C133.  What others do changes nothing in a handler but the file it looks at: not its lists of properties, not their units and
powers of h, not what it has loaded, and not its selection. -/
theorem C133_blind (w : World K) (j : ℕ) (s : State K) (hs : w.view j = some s) (ts : List (ℕ × Turn K))
    (ht : ∀ t ∈ ts, t.1 ≠ j) : (w.run ts).view j = some { s with file := (w.run ts).file } := by
  have h1 : (w.run ts).hs j = w.hs j := by
    unfold World.run
    clear hs
    induction ts generalizing w with
    | nil => rfl
    | cons t ts ih =>
      simp only [List.foldl_cons]
      rw [ih _ (fun x hx => ht x (by simp [hx])), turn_other w t.1 j (ht t (by simp)) t.2]
  unfold World.view at hs ⊢
  obtain ⟨s', h2, rfl⟩ := Option.map_eq_some_iff.1 hs
  rw [h1, h2]
  rfl

/-- C133.  What a handler has loaded it goes on returning, whatever others write in its place. -/
theorem C133_stale (w : World K) (j : ℕ) (s : State K) (hs : w.view j = some s) (ts : List (ℕ × Turn K))
    (ht : ∀ t ∈ ts, t.1 ≠ j) (p : Name) (hl : (s.loaded.get? p).isSome) :
    ∃ s', (w.run ts).view j = some s' ∧ ∀ u b, returnProperty s' p u b = returnProperty s p u b := by
  refine ⟨_, C133_blind w j s hs ts ht, ?_⟩
  intro u b
  obtain ⟨a, ha⟩ := Option.isSome_iff_exists.1 hl
  unfold returnProperty inds
  dsimp only
  rw [ha]

/-- C133.  What others add to the file, a handler that was open before does not have: it raises `ValueError`. -/
theorem C133_unseen (w : World K) (j : ℕ) (s : State K) (hs : w.view j = some s) (ts : List (ℕ × Turn K))
    (ht : ∀ t ∈ ts, t.1 ≠ j) (p : Name) (hp : p ∉ s.all) :
    ∃ s', (w.run ts).view j = some s' ∧ hasProperty s' p = false ∧
      ∀ u b, returnProperty s' p u b = .error .valueError := by
  refine ⟨_, C133_blind w j s hs ts ht, by simp [hasProperty, hp], ?_⟩
  intro u b
  unfold returnProperty
  dsimp only
  rw [if_neg hp]

/-- C133.  What others delete, a handler that was open before and has not loaded it still lists, but reading it raises
`KeyError`. -/
theorem C133_deleted (file : PyDict Name (Dataset K)) (n : ℕ) (hwf : WF file n) (h : K) (ts : List (ℕ × Turn K)) (i j : ℕ)
    (hij : i ≠ j) (s si : State K) (hj : ((World.start file h).run ts).view j = some s)
    (hi : ((World.start file h).run ts).view i = some si) (p : Name)
    (hall : p ∈ s.all) (hsv : p ∈ s.saved) (hl : s.loaded.get? p = none)
    (hdel : (delete si [p]).2 = .ok ()) :
    ∃ s', ((World.start file h).run (ts ++ [(i, .call (.delete [p]))])).view j = some s' ∧ hasProperty s' p = true ∧
      ∀ u b, returnProperty s' p u b = .error .keyError := by
  obtain ⟨hW, hf⟩ := (run_sound n h _ ts (start_sound file n hwf h)).view hj
  have hrun : (World.start file h).run (ts ++ [(i, .call (.delete [p]))]) =
      ((World.start file h).run ts).run [(i, .call (.delete [p]))] := by
    unfold World.run; rw [List.foldl_append]
  rw [hrun]
  refine ⟨_, C133_blind _ j s hj _ (by simpa using hij), by simp [hasProperty, hall], ?_⟩
  have hgone : (((World.start file h).run ts).run [(i, .call (.delete [p]))]).file.get? p = none := by
    change (((World.start file h).run ts).turn i (.call (.delete [p]))).file.get? p = none
    unfold World.turn
    dsimp only
    rw [hi]
    dsimp only
    have h1 : delete si [p] = deleteOne si p := by
      unfold delete forEach forEach
      rcases deleteOne si p with ⟨a, e | u⟩ <;> rfl
    simp only [step, h1]
    rw [h1] at hdel
    unfold deleteOne at hdel ⊢
    split
    · rename_i hm
      rw [if_pos hm] at hdel
      cases hg : si.file.get? p with
      | none => rw [hg] at hdel; simp at hdel
      | some d => simp
    · rename_i hm
      rw [if_neg hm] at hdel
      simp at hdel
  obtain ⟨e, he⟩ := Option.isSome_iff_exists.1 (hW.hdepAll p hall)
  intro u b
  unfold returnProperty
  dsimp only
  rw [if_pos hall]
  cases b.getD s.inH <;> simp [hsv, hl, hgone, he]

/-- C133.  A handler that was open before another one wrote a property of the same name overwrites it, although it is not asked
to overwrite anything. -/
theorem C133_overwrites (file : PyDict Name (Dataset K)) (n : ℕ) (hwf : WF file n) (h : K) (ts : List (ℕ × Turn K)) (j : ℕ)
    (s : State K) (hj : ((World.start file h).run ts).view j = some s) (p : Name) (hp : p ≠ "mass_cuts")
    (hall : p ∈ s.all) (hsv : p ∉ s.saved) (vals : List (V K)) (hl : s.loaded.get? p = some vals) :
    (write s [p] false).2 = .ok () ∧
      ∃ d, ((World.start file h).run (ts ++ [(j, .call (.write [p] false))])).file.get? p = some d ∧ d.vals = vals := by
  obtain ⟨hW, hf⟩ := (run_sound n h _ ts (start_sound file n hwf h)).view hj
  obtain ⟨un, hun⟩ := Option.isSome_iff_exists.1 (hW.unitsAll p hall)
  obtain ⟨e, he⟩ := Option.isSome_iff_exists.1 (hW.hdepAll p hall)
  have h1 : write s [p] false = writeOne false s p := by
    unfold write forEach forEach
    rcases writeOne false s p with ⟨a, e | u⟩ <;> rfl
  have hw : (writeOne false s p).2 = .ok () ∧ ∃ d, (writeOne false s p).1.file.get? p = some d ∧ d.vals = vals := by
    unfold writeOne
    rw [hl]
    dsimp only
    rw [hun, he]
    simp only [hsv, decide_false, Bool.false_and, Bool.false_eq_true, if_false]
    cases hd : s.file.get? p with
    | none => simp
    | some d =>
      have : d.vals.length = vals.length := by
        rw [hW.fileLen p d hd hp, hW.loadedLen p vals hl hp]
      simp [this]
  rw [h1]
  refine ⟨hw.1, ?_⟩
  have hrun : ((World.start file h).run (ts ++ [(j, .call (.write [p] false))])).file =
      (writeOne false s p).1.file := by
    unfold World.run
    rw [List.foldl_append]
    change (((World.start file h).run ts).turn j (.call (.write [p] false))).file = _
    unfold World.turn
    dsimp only
    rw [hj]
    simp only [step, h1]
  rw [hrun]
  exact hw.2

/-! ## Handlers that keep apart -/

theorem view_turn_other (w : World K) (i j : ℕ) (hij : j ≠ i) (t : Turn K) (s : State K) (hs : w.view i = some s) :
    (w.turn j t).view i = some { s with file := (w.turn j t).file } := by
  have := C133_blind w i s hs [(j, t)] (by simpa using hij)
  exact this

theorem turn_file (w : World K) (j : ℕ) (t : Turn K) (p : Name) (ht : ¬ turnChanges p t) :
    (w.turn j t).file.get? p = w.file.get? p := by
  cases t with
  | «open» inH extra =>
    unfold World.turn
    dsimp only
    split <;> rfl
  | call op =>
    unfold World.turn World.view
    dsimp only
    rcases w.hs j with _ | s
    · rfl
    · exact C08_touches_only_named _ op p ht

theorem apart_alike (N : Name → Prop) (i : ℕ) (ts : List (ℕ × Turn K)) (hA : Apart N i ts) (w : World K) (a s : State K)
    (hs : w.view i = some s) (H : Alike N a s) :
    World.replies i w ts = undisturbed a (own i ts) ∧
      ∃ t, (w.run ts).view i = some t ∧ Alike N (run a (own i ts)) t := by
  induction ts generalizing w a s with
  | nil => exact ⟨rfl, s, hs, H⟩
  | cons jt ts ih =>
    obtain ⟨j, t⟩ := jt
    have hA' : Apart N i ts := fun k x hx => hA k x (by simp [hx])
    have hrun : w.run ((j, t) :: ts) = (w.turn j t).run ts := rfl
    rw [hrun]
    have h0 := hA j t (by simp)
    by_cases hji : j = i
    · obtain ⟨op, rfl, hop⟩ := h0.1 hji
      subst hji
      obtain ⟨h1, h2⟩ := step_alike a s op hop H
      have hv : (w.turn j (.call op)).view j = some (step s op) := by
        have : w.turn j (.call op) =
            { w with file := (step s op).file, hs := fun k => if k = j then some (step s op) else w.hs k } := by
          simp only [World.turn, hs]
        rw [this]
        simp [World.view]
      obtain ⟨i1, i2⟩ := ih hA' _ _ _ hv h1
      refine ⟨?_, ?_⟩
      · simp only [World.replies, hs, own, if_true, undisturbed, i1, h2]
      · simpa only [own, if_true, run, List.foldl_cons] using i2
    · have hv := view_turn_other w i j hji t s hs
      have h1 : Alike N a { s with file := (w.turn j t).file } := by
        have hsf : s.file = w.file := by
          unfold World.view at hs
          obtain ⟨s', -, rfl⟩ := Option.map_eq_some_iff.1 hs
          rfl
        refine ⟨?_, H.saved, ?_⟩
        · intro p hp
          rw [H.file p hp, hsf]
          exact (turn_file w j t p (h0.2 hji p hp)).symm
        · conv_lhs => rw [H.rest]
      obtain ⟨i1, i2⟩ := ih hA' _ _ _ hv h1
      cases t with
      | «open» inH extra => exact ⟨by simp only [World.replies, own, i1], by simpa only [own] using i2⟩
      | call op =>
        refine ⟨?_, ?_⟩
        · simp only [World.replies, hs, own, if_neg hji, i1]
        · simpa only [own, if_neg hji] using i2

/-- C133.  As long as the others make, write and delete only properties that handler `i` does not use, they make no difference to it:
its calls return and raise what they would without the others, its lists, loaded values and selection are the same, and so are the properties it uses, in the
file. -/
theorem C133_apart_partial (N : Name → Prop) (w : World K) (i : ℕ) (s : State K) (hs : w.view i = some s)
    (ts : List (ℕ × Turn K)) (hA : Apart N i ts) :
    World.replies i w ts = undisturbed s (own i ts) ∧
      ∃ t, (w.run ts).view i = some t ∧
        t.all = (run s (own i ts)).all ∧ t.units = (run s (own i ts)).units ∧ t.hdep = (run s (own i ts)).hdep ∧
        t.loaded = (run s (own i ts)).loaded ∧ t.active = (run s (own i ts)).active ∧
        t.nActive = (run s (own i ts)).nActive ∧ t.inH = (run s (own i ts)).inH ∧
        ∀ p, N p → (w.run ts).file.get? p = (run s (own i ts)).file.get? p ∧
          ∀ u b, returnProperty t p u b = returnProperty (run s (own i ts)) p u b := by
  obtain ⟨h1, t, h2, h3⟩ := apart_alike N i ts hA w s s hs ⟨fun _ _ => rfl, fun _ _ => Iff.rfl, rfl⟩
  have hf : t.file = (w.run ts).file := by
    unfold World.view at h2
    obtain ⟨s', -, rfl⟩ := Option.map_eq_some_iff.1 h2
    rfl
  refine ⟨h1, t, h2, by rw [h3.rest], by rw [h3.rest], by rw [h3.rest], by rw [h3.rest], by rw [h3.rest],
    by rw [h3.rest], by rw [h3.rest], ?_⟩
  intro p hp
  refine ⟨by rw [← hf, h3.file p hp], ?_⟩
  intro u b
  exact (read_alike _ t p hp u b h3).symm

/-! ## The full property -/

/-- C133 as one would like it: what a handler returns for a property of the file that it does not itself change or load is the property as it is in the
file now, in the units asked for. -/
def C133_full : Prop :=
  ∀ (file : PyDict Name (Dataset ℚ)) (n : ℕ) (h : ℚ) (ts : List (ℕ × Turn ℚ)) (i : ℕ) (s : State ℚ) (p : Name)
    (d0 d : Dataset ℚ) (e : ℤ), WF file n → h ≠ 0 → p ≠ "mass_cuts" → file.get? p = some d0 →
    ((World.start file h).run ts).view i = some s →
    (∀ op ∈ own i ts, ¬ mentions p op) →
    ((World.start file h).run ts).file.get? p = some d → d.hdep = some e →
    ∀ b, returnProperty s p true (some b) = .ok (some (d.vals.map (seen h e b)))

/-- The star formation rates, made anew, now with a power of h. -/
def sfrAnew : MultiProp ℚ where
  names := ["sfr"]
  fn := fun args _ => match args.get? "mass" with
    | some (.arr vs) => .ok [⟨false, vs⟩]
    | _ => .error .typeError
  kwargs := ["mass"]
  giveH := true
  returnH := true
  units := [("sfr", "Msun/yr/h")]
  hdep := some [("sfr", -1)]

/-- Two handlers; the second replaces the star formation rates. -/
def twoTurns : List (ℕ × Turn ℚ) :=
  [(0, .open true []), (1, .open true []), (1, .call (.delete ["sfr"])), (1, .call (.make sfrAnew plainOpts)),
   (1, .call (.write ["sfr"] false))]

/-- C133 fails: handler 0 returns the new values of the property, but converts them from h units with the power of h that the
old values had. -/
theorem C133_full_false : ¬ C133_full := by
  intro H
  have hv : ∃ s, ((World.start demoFile (1/2)).run twoTurns).view 0 = some s := Option.isSome_iff_exists.1 (by decide +kernel)
  obtain ⟨s, hv⟩ := hv
  have hd : ∃ d, ((World.start demoFile (1/2)).run twoTurns).file.get? "sfr" = some d := Option.isSome_iff_exists.1 (by decide +kernel)
  obtain ⟨d, hd⟩ := hd
  have := H demoFile 4 (1/2) twoTurns 0 s "sfr" _ d (-1) demoFile_wf (by norm_num) (by decide) rfl hv
    (by intro op hop; simp [twoTurns, own] at hop)
    hd (by
      have h2 : (((World.start demoFile (1/2)).run twoTurns).file.get? "sfr").bind Dataset.hdep = some (-1) := by decide +kernel
      rw [hd] at h2
      exact h2) false
  have h3 : (((World.start demoFile (1/2)).run twoTurns).view 0).map (fun s => returnProperty s "sfr" true (some false)) =
      some (.ok (some [some 4, some 3, some 2, some 1])) := by decide +kernel
  have h4 : (((World.start demoFile (1/2)).run twoTurns).file.get? "sfr").map (fun d => d.vals.map (seen (1/2) (-1) false)) =
      some [some 8, some 6, some 4, some 2] := by decide +kernel
  rw [hv] at h3
  rw [hd] at h4
  simp only [Option.map_some, Option.some.injEq] at h3 h4
  rw [this, h4] at h3
  exact absurd h3 (by decide +kernel)

/-! ## The hypotheses can be met -/

/-- Three handlers: 0 selects by mass and reads, 1 replaces the star formation rates, 2 is opened afterwards. -/
def threeTurns : List (ℕ × Turn ℚ) :=
  twoTurns ++ [(0, .call (.range (some "mass") (some 2) none true (some true))), (2, .open true []),
    (2, .call (.ret "sfr" true none)), (0, .call (.ret "mass" false none))]

/-- Nobody changes the masses (C133_rows, C133_untouched, C133_reads): handler 0 has selected three objects, and the handler opened
last sees the new star formation rates. -/
example : (∀ t ∈ threeTurns, ¬ turnChanges "mass" t.2) ∧
    (((World.start demoFile (1/2)).run threeTurns).view 0).map (fun s => (s.active, returnProperty s "mass" false (some true))) =
      some ([0, 1, 2], .ok (some [some 4, some 3, some 2])) ∧
    (((World.start demoFile (1/2)).run threeTurns).view 2).map (fun s => returnProperty s "sfr" true (some false)) =
      some (.ok (some [some 8, some 6, some 4, some 2])) := by
  refine ⟨?_, by decide +kernel, by decide +kernel⟩
  intro t ht
  simp only [threeTurns, twoTurns, List.cons_append, List.nil_append, List.mem_cons, List.not_mem_nil, or_false] at ht
  rcases ht with rfl | rfl | rfl | rfl | rfl | rfl | rfl | rfl | rfl <;>
    simp [turnChanges, changes, sfrAnew, plainOpts]

/-- Handler 0 uses the masses only, and handler 1 replaces the star formation rates (C133_apart_partial). -/
example : ∃ w s, w = (World.start demoFile (1/2)).run (twoTurns.take 2) ∧ w.view 0 = some s ∧
    Apart (fun p => p = "mass") 0 (threeTurns.drop 2) ∧ (own 0 (threeTurns.drop 2)).length = 2 := by
  have hv : ∃ s, ((World.start demoFile (1/2)).run (twoTurns.take 2)).view 0 = some s :=
    Option.isSome_iff_exists.1 (by decide +kernel)
  obtain ⟨s, hv⟩ := hv
  refine ⟨_, s, rfl, hv, ?_, rfl⟩
  intro j t ht
  simp only [threeTurns, twoTurns, List.cons_append, List.nil_append, List.drop_succ_cons, List.drop_zero, List.mem_cons,
    List.not_mem_nil, or_false, Prod.mk.injEq] at ht
  rcases ht with ⟨rfl, rfl⟩ | ⟨rfl, rfl⟩ | ⟨rfl, rfl⟩ | ⟨rfl, rfl⟩ | ⟨rfl, rfl⟩ | ⟨rfl, rfl⟩ | ⟨rfl, rfl⟩ <;>
    simp [turnChanges, changes, sfrAnew, plainOpts, mentions]

/-- Handler 1 can delete what handler 0 lists and has not loaded (C133_deleted). -/
example : (((World.start demoFile (1/2)).run (twoTurns.take 2)).view 0).any (fun s =>
      decide ("sfr" ∈ s.all ∧ "sfr" ∈ s.saved) && (s.loaded.get? "sfr").isNone) = true ∧
    (((World.start demoFile (1/2)).run (twoTurns.take 2)).view 1).map (fun s => (delete s ["sfr"]).2) = some (.ok ()) := by
  refine ⟨by decide +kernel, by decide +kernel⟩

/-- Both handlers make a property of the same name, and the first one has written it (C133_overwrites). -/
example : (((World.start demoFile (1/2)).run [(0, .open true []), (1, .open true []), (0, .call (.make (constProp 1) plainOpts)),
      (0, .call (.write ["c"] false)), (1, .call (.make (constProp 2) plainOpts))]).view 1).any (fun s =>
      decide ("c" ∈ s.all ∧ "c" ∉ s.saved) && decide (s.loaded.get? "c" = some [some 2, some 2, some 2, some 2])
        && decide ((s.file.get? "c").map Dataset.vals = some [some 1, some 1, some 1, some 1])) = true := by
  decide +kernel

end Verif.Handler
