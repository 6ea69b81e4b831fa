import Verif.Lemmas.TextFile

set_option linter.unusedSectionVars false

/-!
# C123: text catalogues of UniverseMachine, character by character
-/

namespace Verif.Load

open Verif.Sim (Err)
open Verif.Load.Spec

variable {F : Type}

theorem words_word (pf : List Char → Option F) (h : TextHalo F)
    (hf : ∀ k ∈ textFloats, Word (h.text k)) : ∀ w ∈ words h, Word w := by
  intro w hw
  rw [words, List.mem_append] at hw
  rcases hw with hw | hw
  · simp only [List.mem_cons, List.not_mem_nil, or_false] at hw
    rcases hw with rfl | rfl | rfl | rfl <;> exact decimal_word _
  · rw [List.mem_map] at hw
    obtain ⟨k, hk, rfl⟩ := hw
    exact hf k hk

theorem fits_words {pf : List Char → Option F} {h : TextHalo F} (hf : h.Fits pf) : ∀ w ∈ words h, Word w :=
  words_word pf h (fun k hk => (hf.text k hk).1)

theorem mapE_of {ε α β : Type} (f : α → Except ε β) (g : α → β) (xs : List α)
    (h : ∀ x ∈ xs, f x = .ok (g x)) : mapE f xs = .ok (xs.map g) := by
  induction xs with
  | nil => rfl
  | cons x xs ih =>
    simp only [mapE, h x (by simp), ih (fun y hy => h y (by simp [hy])), List.map_cons]

theorem mapE_refused {α β : Type} (f : α → Except Err β) (xs : List α)
    (hv : ∀ x ∈ xs, ∀ e, f x = .error e → e = .valueError) (x : α) (hx : x ∈ xs) (e : Err)
    (h : f x = .error e) : mapE f xs = .error .valueError := by
  induction xs with
  | nil => simp at hx
  | cons y ys ih =>
    rcases hy : f y with e' | b
    · simp only [mapE, hy]
      rw [hv y (by simp) e' hy]
    · rcases List.mem_cons.1 hx with rfl | hx
      · rw [h] at hy; cases hy
      · simp only [mapE, hy, ih (fun z hz => hv z (by simp [hz])) hx]

/-- A row with the numbers of a halo. -/
def rowOf (h : TextHalo F) : PyDict Name (TVal F) := textNames.map (fun k => (k, numberOf h k))

theorem zip_words (h : TextHalo F) : dtypeText.zip (words h) =
    [(("id", true), decimal h.id), (("descid", true), decimal h.descid), (("upid", true), decimal h.upid),
      (("flags", true), decimal h.flags)] ++ textFloats.map (fun k => ((k, false), h.text k)) := rfl

theorem readWord_int (pf : List Char → Option F) (other : List Char → Option ℤ) (z : ℤ) (hz : Bits32 z) :
    readWord pf other true (decimal z) = .ok (.int z) := by
  unfold readWord
  rw [if_pos rfl, textInt_decimal]
  simp only
  exact if_pos hz

theorem floatName (k : String) (hk : k ∈ textFloats) :
    k ≠ "id" ∧ k ≠ "descid" ∧ k ≠ "upid" ∧ k ≠ "flags" := by
  have : ∀ k ∈ textFloats, k ≠ "id" ∧ k ≠ "descid" ∧ k ≠ "upid" ∧ k ≠ "flags" := by decide
  exact this k hk

theorem readRow_words (pf : List Char → Option F) (other : List Char → Option ℤ) (h : TextHalo F)
    (hf : h.Fits pf) : readRow pf other (words h) = .ok (rowOf h) := by
  unfold readRow
  rw [if_neg (by simp [words, textFloats, dtypeText]), zip_words]
  rw [mapE_of _ (fun p => (p.1.1, numberOf h p.1.1))]
  · rfl
  · intro x hx
    rw [List.mem_append] at hx
    rcases hx with hx | hx
    · simp only [List.mem_cons, List.not_mem_nil, or_false] at hx
      rcases hx with rfl | rfl | rfl | rfl
      · simp only [readWord_int pf other _ hf.id]; rfl
      · simp only [readWord_int pf other _ hf.descid]; rfl
      · simp only [readWord_int pf other _ hf.upid]; rfl
      · simp only [readWord_int pf other _ hf.flags]; rfl
    · rw [List.mem_map] at hx
      obtain ⟨k, hk, rfl⟩ := hx
      obtain ⟨h1, h2, h3, h4⟩ := floatName k hk
      have hp := (hf.text k hk).2
      simp only [readWord, Bool.false_eq_true, if_false, hp, numberOf, if_neg h1, if_neg h2, if_neg h3, if_neg h4]

theorem get?_names {α : Type} (ks : List String) (f : String → α) (k : String) (hk : k ∈ ks) :
    PyDict.get? (ks.map (fun k => (k, f k))) k = some (f k) := by
  induction ks with
  | nil => simp at hk
  | cons a ks ih =>
    rw [List.map_cons, PyDict.get?_cons]
    by_cases h : a = k
    · subst h; simp
    · rw [if_neg h]
      exact ih ((List.mem_cons.1 hk).resolve_left (fun e => h e.symm))

theorem textColumn_rows (hs : List (TextHalo F)) (k : String) (hk : k ∈ textNames) :
    textColumn (hs.map rowOf) k = hs.map (fun h => numberOf h k) := by
  unfold textColumn
  induction hs with
  | nil => rfl
  | cons h hs ih =>
    have e : (rowOf h).get? k = some (numberOf h k) := get?_names textNames (numberOf h) k hk
    simp only [List.map_cons, List.filterMap_cons, e, ih]

theorem foldl_set_get {α : Type} (f : String → α) (fields : List String) (d : PyDict String α) (k : String) :
    (fields.foldl (fun d k => d.set k (f k)) d).get? k = if k ∈ fields then some (f k) else d.get? k := by
  induction fields generalizing d with
  | nil => simp
  | cons a fields ih =>
    rw [List.foldl_cons, ih]
    by_cases h1 : k ∈ fields
    · simp [h1]
    · by_cases h2 : k = a
      · subst h2; simp [PyDict.get?_set]
      · simp [h1, h2, PyDict.get?_set, Ne.symm h2]

/-- Reading a text whose lines are those of given halos. -/
theorem textFile_of (pf : List Char → Option F) (other : List Char → Option ℤ) (text : List Char)
    (hs : List (TextHalo F)) (hf : ∀ h ∈ hs, h.Fits pf) (ht : textRows text = hs.map words)
    (fields : List Name) (hk : ∀ k ∈ fields, k ∈ textNames) :
    if hs.length = 1 then textFile pf other text fields = .error .typeError
    else ∃ cols, textFile pf other text fields = .ok (cols, hs.length) ∧
      ∀ k ∈ fields, cols.get? k = some (hs.map (fun h => numberOf h k)) := by
  have hrows : mapE (readRow pf other) (textRows text) = .ok (hs.map rowOf) := by
    rw [ht]
    clear ht
    induction hs with
    | nil => rfl
    | cons h hs ih =>
      simp only [List.map_cons, mapE, readRow_words pf other h (hf h (by simp)),
        ih (fun x hx => hf x (by simp [hx]))]
  have hany : fields.any (fun f => !(dtypeText.map (fun t => t.1)).contains f) = false := by
    rw [List.any_eq_false]
    intro k hkf
    have := hk k hkf
    have e : dtypeText.map (fun t => t.1) = textNames := rfl
    rw [e]
    simpa using this
  split
  · rename_i h1
    simp only [textFile, hrows, hany, Bool.false_eq_true, if_false, List.length_map, h1, if_true]
  · rename_i h1
    simp only [textFile, hrows, hany, Bool.false_eq_true, if_false, List.length_map, if_neg h1]
    refine ⟨_, rfl, ?_⟩
    intro k hkf
    rw [foldl_set_get, if_pos hkf, textColumn_rows hs k (hk k hkf)]

/-- A file: lines of comments, and a line for each halo. -/
theorem textRows_file (pf : List Char → Option F) (cs : List (List Char))
    (hc : ∀ c ∈ cs, ∀ x ∈ c, x ≠ '\n' ∧ x ≠ '\r') (hs : List (TextHalo F)) (hf : ∀ h ∈ hs, h.Fits pf)
    (rest : List Char) :
    textRows (header cs ++ (body hs ++ rest)) = hs.map words ++ textRows rest := by
  rw [textRows_header cs, textRows_body hs (fun h hh => fits_words (hf h hh))]
  intro c hcc x hx
  obtain ⟨h1, h2⟩ := hc c hcc x hx
  simp only [isEnd, decide_eq_false h1, decide_eq_false h2, Bool.or_self]

/-- **C123, partial (values).** From a text catalogue with any number of halos other than one, with any
comments before them, every property asked for is read as it was written, for all halos, in the order of the
file. -/
theorem C123_values_partial (pf : List Char → Option F) (other : List Char → Option ℤ) (cs : List (List Char))
    (hc : ∀ c ∈ cs, ∀ x ∈ c, x ≠ '\n' ∧ x ≠ '\r') (hs : List (TextHalo F)) (hf : ∀ h ∈ hs, h.Fits pf)
    (hn : hs.length ≠ 1) (fields : List Name) (hk : ∀ k ∈ fields, k ∈ textNames) :
    ∃ cols, textFile pf other (header cs ++ body hs) fields = .ok (cols, hs.length) ∧
      ∀ k ∈ fields, cols.get? k = some (hs.map (fun h => numberOf h k)) := by
  have := textFile_of pf other (header cs ++ body hs) hs hf (by
    have := textRows_file pf cs hc hs hf []
    rw [List.append_nil] at this
    rw [this]
    simp [show textRows [] = [] from rfl]) fields hk
  rwa [if_neg hn] at this

/-- **C123 (one halo).** A catalogue with exactly one halo cannot be loaded. -/
theorem C123_single (pf : List Char → Option F) (other : List Char → Option ℤ) (cs : List (List Char))
    (hc : ∀ c ∈ cs, ∀ x ∈ c, x ≠ '\n' ∧ x ≠ '\r') (h : TextHalo F) (hf : h.Fits pf)
    (fields : List Name) (hk : ∀ k ∈ fields, k ∈ textNames) :
    textFile pf other (header cs ++ body [h]) fields = .error .typeError := by
  have := textFile_of pf other (header cs ++ body [h]) [h] (by simpa using hf) (by
    have := textRows_file pf cs hc [h] (by simpa using hf) []
    rw [List.append_nil] at this
    rw [this]
    rfl) fields hk
  rwa [if_pos (by rfl)] at this

theorem readWord_err (pf : List Char → Option F) (other : List Char → Option ℤ) (b : Bool) (w : List Char)
    (e : Err) (h : readWord pf other b w = .error e) : e = .valueError := by
  unfold readWord at h
  split at h
  · split at h
    · split at h <;> cases h; rfl
    · split at h <;> cases h; rfl
  · split at h <;> cases h; rfl

theorem mapE_err {α β : Type} (f : α → Except Err β) (xs : List α)
    (hv : ∀ x ∈ xs, ∀ e, f x = .error e → e = .valueError) (e : Err) (h : mapE f xs = .error e) :
    e = .valueError := by
  induction xs with
  | nil => simp [mapE] at h
  | cons x xs ih =>
    rcases hx : f x with e' | b
    · simp only [mapE, hx] at h
      cases h
      exact hv x (by simp) _ hx
    · rcases hy : mapE f xs with e'' | c
      · simp only [mapE, hx, hy] at h
        cases h
        exact ih (fun z hz => hv z (by simp [hz])) hy
      · simp only [mapE, hx, hy] at h
        cases h

theorem readRow_err (pf : List Char → Option F) (other : List Char → Option ℤ) (ws : List (List Char))
    (e : Err) (h : readRow pf other ws = .error e) : e = .valueError := by
  unfold readRow at h
  split at h
  · cases h; rfl
  · refine mapE_err _ _ ?_ e h
    intro x _ e' he
    rcases hw : readWord pf other x.1.2 x.2 with e'' | v
    · rw [hw] at he
      simp only at he
      cases he
      exact readWord_err _ _ _ _ _ hw
    · rw [hw] at he
      cases he

theorem textFile_refused (pf : List Char → Option F) (other : List Char → Option ℤ) (text : List Char)
    (ws : List (List Char)) (hw : ws ∈ textRows text) (e : Err) (h : readRow pf other ws = .error e)
    (fields : List Name) : textFile pf other text fields = .error .valueError := by
  unfold textFile
  rw [mapE_refused _ _ (fun x _ e he => readRow_err pf other x e he) ws hw e h]

/-- **C123 (wide numbers).** A catalogue in which any identification number needs more than 32 bits cannot be
loaded, whatever is asked for. -/
theorem C123_wide (pf : List Char → Option F) (other : List Char → Option ℤ) (cs : List (List Char))
    (hc : ∀ c ∈ cs, ∀ x ∈ c, x ≠ '\n' ∧ x ≠ '\r') (hs : List (TextHalo F))
    (hf : ∀ h ∈ hs, ∀ k ∈ textFloats, Word (h.text k)) (h : TextHalo F) (hh : h ∈ hs)
    (hbad : ¬ Bits32 h.id ∨ ¬ Bits32 h.descid ∨ ¬ Bits32 h.upid) (fields : List Name) :
    textFile pf other (header cs ++ body hs) fields = .error .valueError := by
  have hrows : textRows (header cs ++ body hs) = hs.map words := by
    have e : header cs ++ body hs = header cs ++ (body hs ++ []) := by rw [List.append_nil]
    rw [e, textRows_header cs, textRows_body hs (fun h hh => words_word pf h (hf h hh))]
    · simp [show textRows [] = [] from rfl]
    · intro c hcc x hx
      obtain ⟨h1, h2⟩ := hc c hcc x hx
      simp only [isEnd, decide_eq_false h1, decide_eq_false h2, Bool.or_self]
  refine textFile_refused pf other _ (words h) (by rw [hrows]; exact List.mem_map_of_mem hh) .valueError ?_ fields
  unfold readRow
  rw [if_neg (by simp [words, textFloats, dtypeText]), zip_words]
  have bad : ∀ (name : String) (z : ℤ), ¬ Bits32 z →
      (match readWord pf other true (decimal z) with
        | .error e => (.error e : Except Err (Name × TVal F))
        | .ok v => .ok (name, v)) = .error .valueError := by
    intro name z hz
    have : readWord pf other true (decimal z) = .error .valueError := by
      unfold readWord
      rw [if_pos rfl, textInt_decimal]
      simp only
      exact if_neg hz
    rw [this]
  have hv : ∀ x : (Name × Bool) × List Char, ∀ e,
      (match readWord pf other x.1.2 x.2 with
        | .error e => (.error e : Except Err (Name × TVal F))
        | .ok v => .ok (x.1.1, v)) = .error e → e = .valueError := by
    intro x e' he
    rcases hw : readWord pf other x.1.2 x.2 with e'' | v
    · rw [hw] at he
      simp only at he
      cases he
      exact readWord_err _ _ _ _ _ hw
    · rw [hw] at he
      cases he
  rcases hbad with hb | hb | hb
  · exact mapE_refused _ _ (fun x _ => hv x) (("id", true), decimal h.id) (by simp) _ (bad "id" _ hb)
  · exact mapE_refused _ _ (fun x _ => hv x) (("descid", true), decimal h.descid) (by simp) _
      (bad "descid" _ hb)
  · exact mapE_refused _ _ (fun x _ => hv x) (("upid", true), decimal h.upid) (by simp) _ (bad "upid" _ hb)

/-! ## Files that were cut off -/

/-- A halo with another last number. -/
def withLast (h : TextHalo F) (v : List Char) (y : F) : TextHalo F :=
  { h with float := fun k => if k = "obs_uv" then y else h.float k,
           text := fun k => if k = "obs_uv" then v else h.text k }

theorem words_withLast (h : TextHalo F) (v : List Char) (y : F) :
    words (withLast h v y) = (words h).take 27 ++ [v] := rfl

theorem withLast_fits {pf : List Char → Option F} {h : TextHalo F} (hf : h.Fits pf) (v : List Char) (y : F)
    (hv : Word v) (hy : pf v = some y) : (withLast h v y).Fits pf := by
  refine ⟨hf.id, hf.descid, hf.upid, hf.flags, ?_⟩
  intro k hk
  simp only [withLast]
  by_cases h1 : k = "obs_uv"
  · simp only [if_pos h1]; exact ⟨hv, hy⟩
  · simp only [if_neg h1]; exact hf.text k hk

theorem take_body (hs : List (TextHalo F)) (m : ℕ) : ∃ k t, (body hs).take m = body (hs.take k) ++ t ∧
    (t = [] ∨ ∃ h, hs[k]? = some h ∧ t <+: spaced (words h)) := by
  induction hs generalizing m with
  | nil => exact ⟨0, [], by simp [body], Or.inl rfl⟩
  | cons h hs ih =>
    have e : body (h :: hs) = (spaced (words h) ++ ['\n']) ++ body hs := by simp [body]
    by_cases hm : m ≤ (spaced (words h)).length
    · refine ⟨0, (spaced (words h)).take m, ?_, Or.inr ⟨h, rfl, List.take_prefix _ _⟩⟩
      rw [e, List.append_assoc, List.take_append_of_le_length hm]
      rfl
    · obtain ⟨n, rfl⟩ : ∃ n, m = (spaced (words h) ++ ['\n']).length + n :=
        ⟨m - (spaced (words h) ++ ['\n']).length, by simp only [List.length_append, List.length_singleton]; omega⟩
      obtain ⟨k, t, h1, h2⟩ := ih n
      refine ⟨k + 1, t, ?_, by simpa using h2⟩
      rw [e, List.take_length_add_append, h1]
      simp [body]

theorem take_header (cs : List (List Char)) (hc : ∀ c ∈ cs, ∀ x ∈ c, isEnd x = false) (m : ℕ) :
    textRows ((header cs).take m) = [] := by
  induction cs generalizing m with
  | nil => simp [header]; rfl
  | cons c cs ih =>
    have e : header (c :: cs) = (('#' :: c) ++ ['\n']) ++ header cs := by simp [header]
    have hc' : ∀ x ∈ '#' :: c, isEnd x = false := by
      intro x hx
      rcases List.mem_cons.1 hx with rfl | hx
      · rfl
      · exact hc c (by simp) x hx
    by_cases hm : m ≤ ('#' :: c).length
    · rw [e, List.append_assoc, List.take_append_of_le_length hm,
        textRows_last _ (fun x hx => hc' x (List.mem_of_mem_take hx))]
      cases m <;> rfl
    · obtain ⟨n, rfl⟩ : ∃ n, m = (('#' :: c) ++ ['\n']).length + n :=
        ⟨m - (('#' :: c) ++ ['\n']).length, by simp only [List.length_append, List.length_singleton]; omega⟩
      rw [e, List.take_length_add_append, List.append_assoc, List.singleton_append, textRows_line _ _ hc',
        ih (fun x hx => hc x (by simp [hx]))]
      rfl

/-- **C123 (files cut off).** A text catalogue is cut off at any character.  If it can still be loaded, what is read
are the first halos, and possibly one more, whose last number is what is left of its text. -/
theorem C123_cut (pf : List Char → Option F) (other : List Char → Option ℤ) (cs : List (List Char))
    (hc : ∀ c ∈ cs, ∀ x ∈ c, x ≠ '\n' ∧ x ≠ '\r') (hs : List (TextHalo F)) (hf : ∀ h ∈ hs, h.Fits pf)
    (m : ℕ) (fields : List Name) (hk : ∀ k ∈ fields, k ∈ textNames)
    (cols : PyDict Name (List (TVal F))) (n : ℕ)
    (hr : textFile pf other ((header cs ++ body hs).take m) fields = .ok (cols, n)) :
    ∃ gs : List (TextHalo F), n = gs.length ∧
      (∀ k ∈ fields, cols.get? k = some (gs.map (fun h => numberOf h k))) ∧
      ((∃ k, gs = hs.take k) ∨ ∃ (k : ℕ) (h : TextHalo F) (v : List Char) (y : F), hs[k]? = some h ∧
        v <+: h.text "obs_uv" ∧ v ≠ [] ∧ pf v = some y ∧
        gs = hs.take k ++ [{ h with float := fun c => if c = "obs_uv" then y else h.float c }]) := by
  have done : ∀ gs : List (TextHalo F), (∀ h ∈ gs, h.Fits pf) →
      textRows ((header cs ++ body hs).take m) = gs.map words → n = gs.length ∧
        ∀ k ∈ fields, cols.get? k = some (gs.map (fun h => numberOf h k)) := by
    intro gs hg ht
    have := textFile_of pf other _ gs hg ht fields hk
    split at this
    · rw [hr] at this; cases this
    · obtain ⟨cols', h1, h2⟩ := this
      rw [hr] at h1
      simp only [Except.ok.injEq, Prod.mk.injEq] at h1
      obtain ⟨rfl, rfl⟩ := h1
      exact ⟨rfl, h2⟩
  have hc' : ∀ c ∈ cs, ∀ x ∈ c, isEnd x = false := by
    intro c hcc x hx
    obtain ⟨h1, h2⟩ := hc c hcc x hx
    simp only [isEnd, decide_eq_false h1, decide_eq_false h2, Bool.or_self]
  by_cases hm : m ≤ (header cs).length
  · obtain ⟨h1, h2⟩ := done [] (by simp) (by
      rw [List.take_append_of_le_length hm, take_header cs hc']; rfl)
    exact ⟨[], h1, h2, Or.inl ⟨0, rfl⟩⟩
  · obtain ⟨m', rfl⟩ : ∃ m', m = (header cs).length + m' := ⟨m - (header cs).length, by omega⟩
    rw [List.take_length_add_append] at hr done
    obtain ⟨k, t, h1, h2⟩ := take_body hs m'
    have hft : ∀ h ∈ hs.take k, h.Fits pf := fun h hh => hf h (List.mem_of_mem_take hh)
    rw [h1] at hr done
    have hrows := textRows_file pf cs hc (hs.take k) hft t
    have plain : textRows t = [] → _ := fun h0 => done (hs.take k) hft (by rw [hrows, h0, List.append_nil])
    rcases h2 with rfl | ⟨h, hh, ht⟩
    · obtain ⟨g1, g2⟩ := plain rfl
      exact ⟨_, g1, g2, Or.inl ⟨k, rfl⟩⟩
    · have hfh := hf h (List.mem_of_getElem? hh)
      have hte : ∀ c ∈ t, isEnd c = false := fun c hct => spaced_end (fits_words hfh) c (ht.subset hct)
      rw [textRows_last t hte] at hrows plain
      rcases wordsOf_prefix (fits_words hfh) t ht with h0 | ⟨j, w, v, q1, q2, q3, q4⟩
      · obtain ⟨g1, g2⟩ := plain (by rw [if_pos h0])
        exact ⟨_, g1, g2, Or.inl ⟨k, rfl⟩⟩
      · rw [if_neg (by rw [q4]; simp), q4] at hrows
        have hj : j < 28 := by
          have := (List.getElem?_eq_some_iff.1 q1).1
          simpa [words, textFloats] using this
        have hok : ∃ row, readRow pf other ((words h).take j ++ [v]) = .ok row := by
          rcases hx : readRow pf other ((words h).take j ++ [v]) with e | row
          · have := textFile_refused pf other (header cs ++ (body (hs.take k) ++ t)) _
              (by rw [hrows]; simp) e hx fields
            rw [hr] at this
            cases this
          · exact ⟨row, rfl⟩
        have hj27 : j = 27 := by
          obtain ⟨row, hrow⟩ := hok
          unfold readRow at hrow
          split at hrow
          · cases hrow
          · rename_i hl
            simp only [words, textFloats, dtypeText, List.length_append, List.length_take, List.length_cons,
              List.length_nil, List.length_map, ne_eq, Decidable.not_not] at hl
            omega
        subst hj27
        have hw : w = h.text "obs_uv" := by
          have : (words h)[27]? = some (h.text "obs_uv") := rfl
          rw [this] at q1
          exact (Option.some.inj q1).symm
        subst hw
        have hvw : Word v := word_prefix (hfh.text "obs_uv" (by decide)).1 q2 q3
        have hpv : ∃ y, pf v = some y := by
          rcases hy : pf v with - | y
          · exfalso
            obtain ⟨row, hrow⟩ := hok
            have : readRow pf other ((words h).take 27 ++ [v]) = .error .valueError := by
              unfold readRow
              rw [if_neg (by simp [words, textFloats, dtypeText])]
              refine mapE_refused _ _ ?_ (("obs_uv", false), v) ?_ .valueError ?_
              · intro x _ e' he
                rcases hw : readWord pf other x.1.2 x.2 with e'' | u
                · rw [hw] at he
                  simp only at he
                  cases he
                  exact readWord_err _ _ _ _ _ hw
                · rw [hw] at he
                  cases he
              · have e : dtypeText.zip ((words h).take 27 ++ [v]) =
                    (dtypeText.take 27).zip ((words h).take 27) ++ [(("obs_uv", false), v)] := rfl
                rw [e]
                simp
              · simp only [readWord, Bool.false_eq_true, if_false, hy]
            rw [hrow] at this
            cases this
          · exact ⟨y, rfl⟩
        obtain ⟨y, hy⟩ := hpv
        obtain ⟨g1, g2⟩ := done (hs.take k ++ [withLast h v y]) (by
            intro x hx
            rcases List.mem_append.1 hx with hx | hx
            · exact hft x hx
            · rw [List.mem_singleton] at hx
              subst hx
              exact withLast_fits hfh v y hvw hy) (by
            rw [hrows, List.map_append]
            rfl)
        refine ⟨hs.take k ++ [{ h with float := fun c => if c = "obs_uv" then y else h.float c }], ?_, ?_,
          Or.inr ⟨k, h, v, y, hh, q2, q3, hy, rfl⟩⟩
        · rw [g1]; simp
        · intro c hcf
          rw [g2 c hcf, List.map_append, List.map_append]
          rfl

/-- **C123 (files cut off at the end of a line).** Cut off after any number of lines other than one, the
catalogue is read without an error, without the other halos. -/
theorem C123_cut_line (pf : List Char → Option F) (other : List Char → Option ℤ) (cs : List (List Char))
    (hc : ∀ c ∈ cs, ∀ x ∈ c, x ≠ '\n' ∧ x ≠ '\r') (hs : List (TextHalo F)) (hf : ∀ h ∈ hs, h.Fits pf)
    (k : ℕ) (hkl : k < hs.length) (hk1 : k ≠ 1) (fields : List Name) (hk : ∀ k ∈ fields, k ∈ textNames) :
    ∃ m < (header cs ++ body hs).length, ∃ cols,
      textFile pf other ((header cs ++ body hs).take m) fields = .ok (cols, k) ∧
      ∀ c ∈ fields, cols.get? c = some ((hs.take k).map (fun h => numberOf h c)) := by
  have e : body hs = body (hs.take k) ++ body (hs.drop k) := by
    unfold body
    rw [← List.flatten_append, ← List.map_append, List.take_append_drop]
  have hl : (hs.take k).length = k := by rw [List.length_take]; omega
  obtain ⟨cols, h1, h2⟩ := C123_values_partial pf other cs hc (hs.take k)
    (fun h hh => hf h (List.mem_of_mem_take hh)) (by rw [hl]; exact hk1) fields hk
  refine ⟨(header cs ++ body (hs.take k)).length, ?_, cols, ?_, h2⟩
  · rw [e, ← List.append_assoc, List.length_append (as := header cs ++ body (hs.take k))]
    have : body (hs.drop k) ≠ [] := by
      obtain ⟨a, l, ha⟩ := List.exists_cons_of_ne_nil (l := hs.drop k)
        (by rw [ne_eq, List.drop_eq_nil_iff]; omega)
      rw [ha]
      simp [body]
    have := List.length_pos_iff.2 this
    omega
  · rw [e, ← List.append_assoc, List.take_left, h1, hl]

/-- **C123 (files cut off in a number).** Cut off in the last number of any line but the first, where what is left is
a number, the catalogue is read without an error, with this number. -/
theorem C123_cut_number (pf : List Char → Option F) (other : List Char → Option ℤ) (cs : List (List Char))
    (hc : ∀ c ∈ cs, ∀ x ∈ c, x ≠ '\n' ∧ x ≠ '\r') (hs : List (TextHalo F)) (hf : ∀ h ∈ hs, h.Fits pf)
    (k : ℕ) (h : TextHalo F) (hh : hs[k]? = some h) (hk0 : 0 < k) (v : List Char) (y : F)
    (hv : v <+: h.text "obs_uv") (hne : v ≠ []) (hy : pf v = some y) (fields : List Name)
    (hk : ∀ k ∈ fields, k ∈ textNames) (hlast : "obs_uv" ∈ fields) :
    ∃ m < (header cs ++ body hs).length, ∃ cols,
      textFile pf other ((header cs ++ body hs).take m) fields = .ok (cols, k + 1) ∧
      cols.get? "obs_uv" = some ((hs.take k).map (fun h => .float (h.float "obs_uv")) ++ [.float y]) := by
  have hkl : k < hs.length := (List.getElem?_eq_some_iff.1 hh).1
  have hfh := hf h (List.mem_of_getElem? hh)
  have hvw : Word v := word_prefix (hfh.text "obs_uv" (by decide)).1 hv hne
  have hft : ∀ g ∈ hs.take k, g.Fits pf := fun g hg => hf g (List.mem_of_mem_take hg)
  have e : body hs = body (hs.take k) ++ (spaced (words h) ++ '\n' :: body (hs.drop (k + 1))) := by
    have : hs = hs.take k ++ h :: hs.drop (k + 1) := by
      conv_lhs => rw [← List.take_append_drop k hs]
      rw [List.drop_eq_getElem_cons hkl]
      rw [List.getElem?_eq_getElem hkl] at hh
      rw [Option.some.inj hh]
    conv_lhs => rw [this]
    simp [body]
  obtain ⟨v', hv'⟩ := hv
  have esp : spaced (words h) = spaced (words (withLast h v y)) ++ v' := by
    have key : ∀ (ws : List (List Char)) (a : List Char), ws ≠ [] →
        spaced (ws ++ [a]) = spaced ws ++ ' ' :: a := by
      intro ws a hw
      induction ws with
      | nil => exact absurd rfl hw
      | cons b ws ih =>
        cases ws with
        | nil => rfl
        | cons c ws =>
          rw [List.cons_append, List.cons_append, spaced_cons, spaced_cons, ← List.cons_append, ih (by simp),
            List.append_assoc, List.cons_append]
    rw [words_withLast, key _ _ (by simp [words]), List.append_assoc, List.cons_append, hv',
      ← key _ _ (by simp [words])]
    rfl
  have hrows := textRows_file pf cs hc (hs.take k) hft (spaced (words (withLast h v y)))
  have hgf : ∀ g ∈ hs.take k ++ [withLast h v y], g.Fits pf := by
    intro x hx
    rcases List.mem_append.1 hx with hx | hx
    · exact hft x hx
    · rw [List.mem_singleton] at hx
      subst hx
      exact withLast_fits hfh v y hvw hy
  have hwl := fits_words (withLast_fits hfh v y hvw hy)
  rw [textRows_last _ (spaced_end hwl), wordsOf_spaced hwl, if_neg (by simp [words])] at hrows
  have hl : (hs.take k ++ [withLast h v y]).length = k + 1 := by
    rw [List.length_append, List.length_take, List.length_singleton]; omega
  have := textFile_of pf other _ (hs.take k ++ [withLast h v y]) hgf (by
    rw [hrows, List.map_append]; rfl) fields hk
  rw [if_neg (by rw [hl]; omega), hl] at this
  obtain ⟨cols, h1, h2⟩ := this
  have elen : header cs ++ body hs = (header cs ++ (body (hs.take k) ++ spaced (words (withLast h v y)))) ++
      (v' ++ '\n' :: body (hs.drop (k + 1))) := by
    rw [e, esp]
    simp only [List.append_assoc]
  refine ⟨(header cs ++ (body (hs.take k) ++ spaced (words (withLast h v y)))).length, ?_, cols, ?_, ?_⟩
  · rw [elen, List.length_append (bs := v' ++ '\n' :: body (hs.drop (k + 1)))]
    simp only [List.length_append, List.length_cons]
    omega
  · rw [elen, List.take_left, h1]
  · rw [h2 _ hlast, List.map_append]
    rfl

/-! ## The property in full -/

/-- **C123, in full.** The halos of a catalogue are read as they were written, however many there are, and a
catalogue that was cut off is refused. -/
def C123_full : Prop :=
  ∀ (F : Type) (pf : List Char → Option F) (other : List Char → Option ℤ) (hs : List (TextHalo F)),
    (∀ h ∈ hs, h.Fits pf) → ∀ fields : List Name, (∀ k ∈ fields, k ∈ textNames) →
    (∃ cols, textFile pf other (body hs) fields = .ok (cols, hs.length) ∧
      ∀ k ∈ fields, cols.get? k = some (hs.map (fun h => numberOf h k))) ∧
    ∀ m < (body hs).length, ∃ e, textFile pf other ((body hs).take m) fields = .error e

/-- A halo whose numbers are all `0`. -/
def zeroHalo (i : ℤ) : TextHalo ℕ := ⟨i, -1, -1, 0, fun _ => 0, fun _ => ['0']⟩

/-- Digits as numbers. -/
def digitsOnly : List Char → Option ℕ := digitsVal 0

theorem bits_minus : Bits32 (-1) := by unfold Bits32; decide

theorem bits_zero : Bits32 0 := by unfold Bits32; decide

theorem zeroHalo_fits (i : ℤ) (hi : Bits32 i) : (zeroHalo i).Fits digitsOnly :=
  ⟨hi, bits_minus, bits_minus, bits_zero, fun _ _ => ⟨⟨by simp [zeroHalo], by simp [zeroHalo]⟩, rfl⟩⟩

/-- C123 is false in full: a catalogue of one halo cannot be loaded (`C123_single`), and one that was cut off can
(`C123_cut_line`, `C123_cut_number`). -/
theorem C123_full_false : ¬ C123_full := by
  intro H
  have hf : ∀ h ∈ [zeroHalo 7], h.Fits digitsOnly := by
    simpa using zeroHalo_fits 7 (by unfold Bits32; decide)
  obtain ⟨⟨cols, h1, -⟩, -⟩ := H ℕ digitsOnly (fun _ => none) [zeroHalo 7] hf ["id"] (by decide)
  have := C123_single digitsOnly (fun _ => none) [] (by simp) (zeroHalo 7) (hf _ (by simp)) ["id"] (by decide)
  have e : header [] ++ body [zeroHalo 7] = body [zeroHalo 7] := rfl
  rw [e, h1] at this
  cases this

/-- Two halos with a comment before them: the last number is `21` as written. -/
def uvHalo (i : ℤ) : TextHalo ℕ :=
  ⟨i, -1, -1, 0, fun k => if k = "obs_uv" then 21 else 0, fun k => if k = "obs_uv" then ['2', '1'] else ['0']⟩

theorem uvHalo_fits (i : ℤ) (hi : Bits32 i) : (uvHalo i).Fits digitsOnly :=
  ⟨hi, bits_minus, bits_minus, bits_zero, fun k _ => by
    by_cases h : k = "obs_uv"
    · simp only [uvHalo, h, if_true]
      exact ⟨⟨by simp, by decide⟩, by decide⟩
    · simp only [uvHalo, h, if_false]
      exact ⟨⟨by simp, by decide⟩, by decide⟩⟩

example : ∃ cols, textFile digitsOnly (fun _ => none) (header [" id descid".toList] ++
    body [uvHalo 5, uvHalo (-123)]) ["id", "obs_uv"] = .ok (cols, 2) ∧
    cols.get? "id" = some [.int 5, .int (-123)] ∧ cols.get? "obs_uv" = some [.float 21, .float 21] := by
  obtain ⟨cols, h1, h2⟩ := C123_values_partial digitsOnly (fun _ => none) [" id descid".toList] (by decide)
    [uvHalo 5, uvHalo (-123)] (by
      intro h hh
      simp only [List.mem_cons, List.not_mem_nil, or_false] at hh
      rcases hh with rfl | rfl <;> exact uvHalo_fits _ (by unfold Bits32; decide)) (by decide) ["id", "obs_uv"]
      (by decide)
  exact ⟨cols, h1, h2 "id" (by simp), h2 "obs_uv" (by simp)⟩

/-- The same catalogue without its last two characters: the last number is read as `2`. -/
example : ∃ m < (body [uvHalo 5, uvHalo 6]).length, ∃ cols,
    textFile digitsOnly (fun _ => none) ((body [uvHalo 5, uvHalo 6]).take m) ["obs_uv"] = .ok (cols, 2) ∧
    cols.get? "obs_uv" = some [.float 21, .float 2] :=
  C123_cut_number digitsOnly (fun _ => none) [] (by simp) [uvHalo 5, uvHalo 6] (by
      intro h hh
      simp only [List.mem_cons, List.not_mem_nil, or_false] at hh
      rcases hh with rfl | rfl <;> exact uvHalo_fits _ (by unfold Bits32; decide)) 1 (uvHalo 6) rfl (by decide)
    ['2'] 2 ⟨['1'], rfl⟩ (by simp) rfl ["obs_uv"] (by decide) (by simp)

/-- An identification number that needs more than 32 bits. -/
example : textFile digitsOnly (fun _ => none) (body [uvHalo 5, zeroHalo 3000000000]) ["obs_uv"] =
    .error .valueError :=
  C123_wide digitsOnly (fun _ => none) [] (by simp) [uvHalo 5, zeroHalo 3000000000] (by
      intro h hh k hk
      simp only [List.mem_cons, List.not_mem_nil, or_false] at hh
      rcases hh with rfl | rfl
      · exact ((uvHalo_fits 5 (by unfold Bits32; decide)).text k hk).1
      · exact ⟨by simp [zeroHalo], by simp [zeroHalo]⟩) (zeroHalo 3000000000) (by simp)
    (Or.inl (by unfold Bits32 zeroHalo; decide)) ["obs_uv"]

end Verif.Load
