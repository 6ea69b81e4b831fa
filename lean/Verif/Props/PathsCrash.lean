import Verif.Props.PathsShared
import Mathlib.Tactic.Choose

set_option linter.unusedSectionVars false

/-!
# C131: interrupted registrations
-/

namespace Verif.Paths
open Spec

/-! ## Reading files with a torn last line -/

theorem loadLines_append (d : PyDict Text Text) (l l' : List Text) :
    loadLines d (l ++ l') = match loadLines d l with
      | .error e => .error e
      | .ok d' => loadLines d' l' := by
  induction l generalizing d with
  | nil => rfl
  | cons x l ih =>
    simp only [List.cons_append, loadLines]
    cases loadLine d x with
    | error e => rfl
    | ok d' => exact ih d'

theorem lines_torn (es : List (Text × Text)) (h : ∀ e ∈ es, CleanEntry e) (q : Text) (hn : '\n' ∉ q)
    (hr : '\r' ∉ q) (hq : q ≠ []) :
    lines (universalNewlines (fileText es ++ q)) = (es.map fun e => e.1 ++ ' ' :: e.2) ++ [q] := by
  have hu : universalNewlines q = q := by
    simpa [universalNewlines] using universalNewlines_append_clean q [] hr
  induction es with
  | nil =>
    simp only [fileText, List.map_nil, List.flatten_nil, List.nil_append, hu]
    simpa [lines] using linesAux_single q [] hn (Or.inr hq)
  | cons e es ih =>
    have he := h e (by simp)
    have hes := ih (fun e' he' => h e' (by simp [he']))
    obtain ⟨⟨h1, h2, h3⟩, ⟨h4, h5, h6⟩⟩ := he
    have hr : '\r' ∉ entry e.1 e.2 := by simp [entry, h3, h6]
    have hn : '\n' ∉ e.1 ++ ' ' :: e.2 := by simp [h2, h5]
    have : fileText (e :: es) ++ q = entry e.1 e.2 ++ (fileText es ++ q) := by
      simp [fileText]
    rw [this, universalNewlines_append_clean _ _ hr]
    have : entry e.1 e.2 ++ universalNewlines (fileText es ++ q)
        = (e.1 ++ ' ' :: e.2) ++ '\n' :: universalNewlines (fileText es ++ q) := by
      simp [entry]
    unfold lines at hes ⊢
    rw [this, linesAux_clean _ _ _ hn, hes]
    simp

theorem lines_glue (es : List (Text × Text)) (h : ∀ e ∈ es, CleanEntry e) (q : Text) (hn : '\n' ∉ q) :
    lines (fileText es ++ q ++ ['\n']) = (es.map fun e => e.1 ++ ' ' :: e.2) ++ [q] := by
  induction es with
  | nil =>
    have := linesAux_clean q [] [] hn
    simpa [fileText, lines, linesAux] using this
  | cons e es ih =>
    have he := h e (by simp)
    have hes := ih (fun e' he' => h e' (by simp [he']))
    obtain ⟨⟨h1, h2, h3⟩, ⟨h4, h5, h6⟩⟩ := he
    have hn : '\n' ∉ e.1 ++ ' ' :: e.2 := by simp [h2, h5]
    have : fileText (e :: es) ++ q ++ ['\n'] = (e.1 ++ ' ' :: e.2) ++ '\n' :: (fileText es ++ q ++ ['\n']) := by
      simp [fileText, entry]
    unfold lines at hes ⊢
    rw [this, linesAux_clean _ _ _ hn, hes]
    simp

/-- A file with a torn last line. -/
theorem load_torn {f : Option Text} {m : Text → Option Text} (h : FileHolds f m) (q : Text)
    (hn : '\n' ∉ q) (hr : '\r' ∉ q) :
    ∃ d, (∀ n, d.get? n = m n) ∧
      loadPathFile (appendFile f q) = if q = [] then .ok d else loadLine d q := by
  obtain ⟨es, hes, hf, hm⟩ := h
  refine ⟨dictOf [] es, hm, ?_⟩
  unfold loadPathFile appendFile
  simp only [hf]
  by_cases hq : q = []
  · subst hq
    simp only [List.append_nil, if_true, lines_fileText es hes, loadLines_clean [] es hes]
  · rw [if_neg hq, lines_torn es hes q hn hr hq, loadLines_append, loadLines_clean [] es hes]
    simp only [loadLines]
    cases loadLine (dictOf [] es) q <;> rfl

theorem splitSp_more (n u : Text) (hn : ' ' ∉ n) : splitSp (n ++ ' ' :: u) = n :: splitSp u := by
  induction n with
  | nil => simp [splitSp]
  | cons c t ih =>
    simp only [List.mem_cons, not_or] at hn
    have hc : ¬ c = ' ' := fun e => hn.1 e.symm
    simp [splitSp, hc, ih hn.2]

theorem prefix_cases {q a b : Text} (h : q <+: a ++ b) : q <+: a ∨ ∃ t, q = a ++ t ∧ t <+: b := by
  rcases List.prefix_or_prefix_of_prefix h (List.prefix_append a b) with h1 | ⟨t, rfl⟩
  · exact Or.inl h1
  · exact Or.inr ⟨t, rfl, (List.prefix_append_right_inj a).1 h⟩

/-- The parts of an entry. -/
theorem prefix_entry (name p q : Text) (h : q <+: entry name p) :
    q <+: name ∨ (∃ p', p' <+: p ∧ q = name ++ ' ' :: p') ∨ q = entry name p := by
  unfold entry at h
  rw [List.append_assoc] at h
  rcases prefix_cases h with h0 | ⟨t, rfl, h1⟩
  · exact Or.inl h0
  · cases t with
    | nil => exact Or.inl (by simp)
    | cons c t =>
      rw [List.cons_append, List.cons_prefix_cons] at h1
      obtain ⟨rfl, h2⟩ := h1
      rcases prefix_cases h2 with h3 | ⟨u, rfl, h4⟩
      · exact Or.inr (Or.inl ⟨t, h3, rfl⟩)
      · cases u with
        | nil => exact Or.inr (Or.inl ⟨p, List.prefix_refl p, by simp⟩)
        | cons c u =>
          rw [List.cons_prefix_cons] at h4
          obtain ⟨rfl, h5⟩ := h4
          have : u = [] := List.prefix_nil.1 h5
          subst this
          exact Or.inr (Or.inr (by simp [entry]))

theorem not_mem_of_prefix {c : Char} {q t : Text} (h : q <+: t) (ht : c ∉ t) : c ∉ q :=
  fun hq => ht (h.subset hq)

theorem Spec.Clean.prefix {q t : Text} (h : q <+: t) (ht : Clean t) : Clean q :=
  ⟨not_mem_of_prefix h ht.1, not_mem_of_prefix h ht.2.1, not_mem_of_prefix h ht.2.2⟩

/-! ## Starting sessions -/

theorem loadPathFile_err (f : Option Text) (e : Err) (h : loadPathFile f = .error e) : e = .indexError := by
  cases f with
  | none => cases h
  | some t =>
    unfold loadPathFile at h
    dsimp only at h
    generalize lines (universalNewlines t) = ls at h
    generalize ([] : PyDict Text Text) = d at h
    induction ls generalizing d with
    | nil => cases h
    | cons l ls ih =>
      simp only [loadLines] at h
      cases hl : loadLine d l with
      | error e' =>
        rw [hl] at h
        simp only [Except.error.injEq] at h
        subst h
        unfold loadLine at hl
        split at hl
        · cases hl
        · simpa using hl.symm
      | ok d' => rw [hl] at h; exact ih d' h

/-- If all three files can be read, the session begins with them. -/
theorem start_ok (d : Disk) (r : Text) (hroot : loadRootFile d.rootFile = .ok (some r))
    (D : Kind → PyDict Text Text) (h : ∀ k, loadPathFile (d.files r k) = .ok (D k)) :
    (start d).2 = .loaded ∧ (start d).1.root = some r ∧ ∀ k, (start d).1.mem k = D k := by
  unfold start newSession loadPaths
  simp only [hroot, h]
  refine ⟨trivial, trivial, fun k => ?_⟩
  cases k <;> simp [setMem]

/-- If one cannot, it does not begin. -/
theorem start_err (d : Disk) (r : Text) (hroot : loadRootFile d.rootFile = .ok (some r)) (k : Kind) (e : Err)
    (h : loadPathFile (d.files r k) = .error e) : (start d).2 = .raised .indexError := by
  have he := loadPathFile_err _ _ h
  subst he
  unfold start newSession loadPaths
  simp only [hroot]
  cases h1 : loadPathFile (d.files r .lc) with
  | error e => simp only [loadPathFile_err _ _ h1]
  | ok l =>
    simp only
    cases h2 : loadPathFile (d.files r .sim) with
    | error e => simp only [loadPathFile_err _ _ h2]
    | ok m =>
      simp only
      cases h3 : loadPathFile (d.files r .prop) with
      | error e => simp only [loadPathFile_err _ _ h3]
      | ok p => cases k <;> simp_all

/-- The disk with the text `q` added to the registry `k` of root `r`. -/
def withText (d : Disk) (r : Text) (k : Kind) (q : Text) : Disk :=
  { d with files := setFile d.files r k (appendFile (d.files r k) q) }

section Histories
variable (env : Env) (ops : List Op) (hc : ∀ ev ∈ (run env fresh ops).2, CleanEvent ev)
  (r : Text) (hr : (run env fresh ops).1.root = some r)
include hc hr

/-- What is registered. -/
theorem history_root : (history (run env fresh ops).2).root = some r := by
  rw [← hr]; exact (run_inv env fresh empty ops inv_fresh hc).root.symm

/-- What sessions begun on the disk with the text added to one registry see. -/
theorem start_torn (k : Kind) (q : Text) (hn : '\n' ∉ q) (hcr : '\r' ∉ q) :
    ∃ d0 : PyDict Text Text, (∀ n, d0.get? n = (history (run env fresh ops).2).lookup r k n) ∧
      (∀ e, (if q = [] then .ok d0 else loadLine d0 q) = Except.error e →
        (start (withText (run env fresh ops).1.disk r k q)).2 = .raised .indexError) ∧
      ∀ d1, (if q = [] then .ok d0 else loadLine d0 q) = Except.ok d1 →
        (start (withText (run env fresh ops).1.disk r k q)).2 = .loaded ∧
        (start (withText (run env fresh ops).1.disk r k q)).1.root = some r ∧
        ∀ k' n, ((start (withText (run env fresh ops).1.disk r k q)).1.mem k').get? n =
          if k' = k then d1.get? n else (history (run env fresh ops).2).lookup r k' n := by
  have hI := run_inv env fresh empty ops inv_fresh hc
  have hroot : loadRootFile (withText (run env fresh ops).1.disk r k q).rootFile = .ok (some r) := by
    rw [← history_root env ops hc r hr]
    exact hI.rootFile
  obtain ⟨d0, h0, hl⟩ := load_torn (hI.files r k) q hn hcr
  have hk : (withText (run env fresh ops).1.disk r k q).files r k =
      appendFile ((run env fresh ops).1.disk.files r k) q := by simp [withText, setFile]
  refine ⟨d0, h0, ?_, ?_⟩
  · intro e he
    exact start_err _ r hroot k e (by rw [hk, hl]; exact he)
  · intro d1 hd1
    have hex : ∀ k', ∃ D : PyDict Text Text, loadPathFile ((withText (run env fresh ops).1.disk r k q).files r k') = .ok D ∧
        ∀ n, D.get? n = if k' = k then d1.get? n else (history (run env fresh ops).2).lookup r k' n := by
      intro k'
      by_cases hkk : k' = k
      · subst hkk
        exact ⟨d1, by rw [hk, hl]; exact hd1, fun n => by simp⟩
      · obtain ⟨D, hD, hDm⟩ := (hI.files r k').load
        refine ⟨D, ?_, fun n => by rw [if_neg hkk]; exact hDm n⟩
        rw [← hD]
        simp [withText, setFile, hkk]
    choose D hD hDm using hex
    obtain ⟨a1, a2, a3⟩ := start_ok _ r hroot D hD
    exact ⟨a1, a2, fun k' n => by rw [a3, hDm]⟩

/-- **C131 fails: cut off in the name.** If an interrupted registration has written part of the name
only, no session can be begun any more. -/
theorem C131_name_cut (k : Kind) (name q : Text) (hname : Clean name) (hq : q <+: name) (hne : q ≠ []) :
    (start (withText (run env fresh ops).1.disk r k q)).2 = .raised .indexError := by
  have hcl := hname.prefix hq
  obtain ⟨d0, -, h1, -⟩ := start_torn env ops hc r hr k q hcl.2.1 hcl.2.2
  refine h1 .indexError ?_
  rw [if_neg hne]
  simp [loadLine, splitSp_clean q hcl.1]

/-- **C131 fails: cut off in the path.** If it has written the name and part of the path, later
sessions resolve the name to that part; all other names as before. -/
theorem C131_path_cut (k : Kind) (name p' : Text) (hname : Clean name) (hp : Clean p') :
    (start (withText (run env fresh ops).1.disk r k (name ++ ' ' :: p'))).2 = .loaded ∧
    (start (withText (run env fresh ops).1.disk r k (name ++ ' ' :: p'))).1.root = some r ∧
    ∀ k' n, ((start (withText (run env fresh ops).1.disk r k (name ++ ' ' :: p'))).1.mem k').get? n =
      if k' = k ∧ n = name then some p' else (history (run env fresh ops).2).lookup r k' n := by
  obtain ⟨d0, h0, -, h2⟩ := start_torn env ops hc r hr k (name ++ ' ' :: p')
    (by simp [hname.2.1, hp.2.1]) (by simp [hname.2.2, hp.2.2])
  have hld : loadLine d0 (name ++ ' ' :: p') = .ok (d0.set name p') := by
    simp [loadLine, splitSp_entry name p' hname.1 hp.1]
  obtain ⟨a1, a2, a3⟩ := h2 (d0.set name p') (by rw [if_neg (by simp)]; exact hld)
  refine ⟨a1, a2, fun k' n => ?_⟩
  rw [a3]
  by_cases hk : k' = k
  · subst hk
    rw [if_pos rfl, PyDict.get?_set, h0]
    by_cases hnn : name = n
    · subst hnn; simp
    · have : ¬ n = name := fun e => hnn e.symm
      simp [hnn, this]
  · simp [hk]

/-- With the line complete, it is as without an interruption. -/
theorem C131_complete (k : Kind) (name p : Text) (hname : Clean name) (hp : Clean p) :
    (start (withText (run env fresh ops).1.disk r k (entry name p))).2 = .loaded ∧
    (start (withText (run env fresh ops).1.disk r k (entry name p))).1.root = some r ∧
    ∀ k' n, ((start (withText (run env fresh ops).1.disk r k (entry name p))).1.mem k').get? n =
      if k' = k ∧ n = name then some p else (history (run env fresh ops).2).lookup r k' n := by
  have hI := run_inv env fresh empty ops inv_fresh hc
  have hroot : loadRootFile (withText (run env fresh ops).1.disk r k (entry name p)).rootFile = .ok (some r) := by
    rw [← history_root env ops hc r hr]
    exact hI.rootFile
  have hex : ∀ k', ∃ D : PyDict Text Text,
      loadPathFile ((withText (run env fresh ops).1.disk r k (entry name p)).files r k') = .ok D ∧
      ∀ n, D.get? n = if k' = k ∧ n = name then some p else (history (run env fresh ops).2).lookup r k' n := by
    intro k'
    by_cases hkk : k' = k
    · subst hkk
      obtain ⟨es, hes, hf, hm⟩ := hI.files r k'
      refine ⟨dictOf [] (es ++ [(name, p)]), ?_, ?_⟩
      · have : (withText (run env fresh ops).1.disk r k' (entry name p)).files r k' =
            some (fileText (es ++ [(name, p)])) := by
          simp [withText, setFile, appendFile, hf, fileText_append]
        rw [this]
        refine loadPathFile_fileText _ ?_
        intro e he
        rcases List.mem_append.1 he with he | he
        · exact hes e he
        · simp only [List.mem_singleton] at he; subst he; exact ⟨hname, hp⟩
      · intro n
        have hm' := hm n
        rw [dictOf_append, PyDict.get?_set, hm']
        by_cases hnn : name = n
        · subst hnn; simp
        · have : ¬ n = name := fun e => hnn e.symm
          simp only [hnn, this, if_false, and_false]
          rfl
    · obtain ⟨D, hD, hDm⟩ := (hI.files r k').load
      refine ⟨D, ?_, fun n => by rw [if_neg (fun h => hkk h.1)]; exact hDm n⟩
      rw [← hD]
      simp [withText, setFile, hkk]
  choose D hD hDm using hex
  obtain ⟨a1, a2, a3⟩ := start_ok _ r hroot D hD
  exact ⟨a1, a2, fun k' n => by rw [a3, hDm]⟩

/-- What should hold after an interrupted registration: sessions begin, the name is resolved to the
old path or to the new one, all other names as before. -/
def Whole (d : Disk) (a : Registry) (r : Text) (k : Kind) (name p : Text) : Prop :=
  (start d).2 = .loaded ∧ (start d).1.root = some r ∧
  (∀ k' n, ¬ (k' = k ∧ n = name) → ((start d).1.mem k').get? n = a.lookup r k' n) ∧
  (((start d).1.mem k).get? name = a.lookup r k name ∨ ((start d).1.mem k).get? name = some p)

/-- **C131, exactly.** After an interrupted registration everything is right just if nothing was
written, or the whole path, or what happens to be the old path. -/
theorem C131_iff_partial (k : Kind) (name p q : Text) (hname : Clean name) (hp : Clean p)
    (hq : q <+: entry name p) :
    Whole (withText (run env fresh ops).1.disk r k q) (history (run env fresh ops).2) r k name p ↔
      q = [] ∨ q = entry name p ∨ ∃ p', q = name ++ ' ' :: p' ∧
        (p' = p ∨ (history (run env fresh ops).2).lookup r k name = some p') := by
  rcases prefix_entry name p q hq with h | ⟨p', hpp, rfl⟩ | rfl
  · by_cases hne : q = []
    · subst hne
      refine iff_of_true ?_ (Or.inl rfl)
      obtain ⟨d0, h0, -, h2⟩ := start_torn env ops hc r hr k [] (by simp) (by simp)
      obtain ⟨a1, a2, a3⟩ := h2 d0 (by simp)
      refine ⟨a1, a2, ?_, Or.inl ?_⟩
      · intro k' n hkn
        rw [a3]
        split
        · rename_i hk; subst hk; exact h0 n
        · rfl
      · rw [a3, if_pos rfl, h0]
    · refine iff_of_false ?_ ?_
      · intro hW
        have := C131_name_cut env ops hc r hr k name q hname h hne
        rw [hW.1] at this
        cases this
      · rintro (h1 | h1 | ⟨p', h1, -⟩)
        · exact hne h1
        · exact not_mem_of_prefix h hname.1 (by rw [h1]; simp [entry])
        · exact not_mem_of_prefix h hname.1 (by rw [h1]; simp)
  · obtain ⟨a1, a2, a3⟩ := C131_path_cut env ops hc r hr k name p' hname (hp.prefix hpp)
    constructor
    · rintro ⟨-, -, -, hW⟩
      rw [a3, if_pos ⟨rfl, rfl⟩] at hW
      refine Or.inr (Or.inr ⟨p', rfl, ?_⟩)
      rcases hW with hW | hW
      · exact Or.inr hW.symm
      · exact Or.inl (by simpa using hW)
    · rintro (h1 | h1 | ⟨p'', h1, h2⟩)
      · simp at h1
      · have : '\n' ∈ name ++ ' ' :: p' := by rw [h1]; simp [entry]
        have h3 := (hp.prefix hpp).2.1
        have h4 := hname.2.1
        simp [h3, h4] at this
      · have : p' = p'' := by simpa using h1
        subst this
        refine ⟨a1, a2, ?_, ?_⟩
        · intro k' n hkn
          rw [a3, if_neg hkn]
        · rw [a3, if_pos ⟨rfl, rfl⟩]
          rcases h2 with h2 | h2
          · exact Or.inr (by rw [h2])
          · exact Or.inl h2.symm
  · refine iff_of_true ?_ (Or.inr (Or.inl rfl))
    obtain ⟨a1, a2, a3⟩ := C131_complete env ops hc r hr k name p hname hp
    refine ⟨a1, a2, ?_, Or.inr ?_⟩
    · intro k' n hkn
      rw [a3, if_neg hkn]
    · rw [a3, if_pos ⟨rfl, rfl⟩]

/-- **C131 fails: the next registration is lost, too.** What is registered after a registration that
was cut off in the path (or just before the end of its line) is glued to it: the next name is resolved
as before by all later sessions, the interrupted one to a path made of both. -/
theorem C131_glued (k : Kind) (name p' n2 p2 : Text) (hname : Clean name) (hp : Clean p') (h2 : Clean n2)
    (hp2 : Clean p2) :
    let d := withText (withText (run env fresh ops).1.disk r k (name ++ ' ' :: p')) r k (entry n2 p2)
    (start d).2 = .loaded ∧
    ∀ k' n, ((start d).1.mem k').get? n =
      if k' = k ∧ n = name then some (p' ++ n2) else (history (run env fresh ops).2).lookup r k' n := by
  intro d
  have hI := run_inv env fresh empty ops inv_fresh hc
  have hroot : loadRootFile d.rootFile = .ok (some r) := by
    rw [← history_root env ops hc r hr]
    exact hI.rootFile
  have hex : ∀ k', ∃ D : PyDict Text Text, loadPathFile (d.files r k') = .ok D ∧
      ∀ n, D.get? n = if k' = k ∧ n = name then some (p' ++ n2) else
        (history (run env fresh ops).2).lookup r k' n := by
    intro k'
    by_cases hkk : k' = k
    · subst hkk
      obtain ⟨es, hes, hf, hm⟩ := hI.files r k'
      refine ⟨(dictOf [] es).set name (p' ++ n2), ?_, ?_⟩
      · have hfile : d.files r k' = some (fileText es ++ (name ++ ' ' :: (p' ++ n2 ++ ' ' :: p2)) ++ ['\n']) := by
          simp [d, withText, setFile, appendFile, hf, entry]
        have hcr : '\r' ∉ fileText es ++ (name ++ ' ' :: (p' ++ n2 ++ ' ' :: p2)) ++ ['\n'] := by
          intro hmem
          simp only [List.mem_append, List.mem_cons, List.mem_singleton, List.not_mem_nil, or_false] at hmem
          rcases hmem with (hmem | hmem) | hmem
          · simp only [fileText, List.mem_flatten, List.mem_map] at hmem
            obtain ⟨l, ⟨e, he, rfl⟩, hl⟩ := hmem
            obtain ⟨⟨-, -, c1⟩, ⟨-, -, c2⟩⟩ := hes e he
            simp [entry, c1, c2] at hl
          · have := hname.2.2; have := hp.2.2; have := h2.2.2; have := hp2.2.2
            simp_all
          · cases hmem
        have hun : universalNewlines (fileText es ++ (name ++ ' ' :: (p' ++ n2 ++ ' ' :: p2)) ++ ['\n']) =
            fileText es ++ (name ++ ' ' :: (p' ++ n2 ++ ' ' :: p2)) ++ ['\n'] := by
          simpa [universalNewlines] using universalNewlines_append_clean _ [] hcr
        have hlines : lines (fileText es ++ (name ++ ' ' :: (p' ++ n2 ++ ' ' :: p2)) ++ ['\n']) =
            (es.map fun e => e.1 ++ ' ' :: e.2) ++ [name ++ ' ' :: (p' ++ n2 ++ ' ' :: p2)] := by
          have := lines_glue es hes (name ++ ' ' :: (p' ++ n2 ++ ' ' :: p2)) (by
            have := hname.2.1; have := hp.2.1; have := h2.2.1; have := hp2.2.1
            simp_all)
          exact this
        rw [hfile]
        unfold loadPathFile
        simp only [hun, hlines]
        rw [loadLines_append, loadLines_clean [] es hes]
        have hs : splitSp (name ++ ' ' :: (p' ++ n2 ++ ' ' :: p2)) = [name, p' ++ n2, p2] := by
          rw [splitSp_more _ _ hname.1, splitSp_entry (p' ++ n2) p2 (by simp [hp.1, h2.1]) hp2.1]
        simp only [loadLines, loadLine, hs]
      · intro n
        have hm' := hm n
        rw [PyDict.get?_set, hm']
        by_cases hnn : name = n
        · subst hnn; simp
        · have : ¬ n = name := fun e => hnn e.symm
          simp only [hnn, this, if_false, and_false]
          rfl
    · obtain ⟨D, hD, hDm⟩ := (hI.files r k').load
      refine ⟨D, ?_, fun n => by rw [if_neg (fun h => hkk h.1)]; exact hDm n⟩
      rw [← hD]
      simp [d, withText, setFile, hkk]
  choose D hD hDm using hex
  obtain ⟨a1, a2, a3⟩ := start_ok _ r hroot D hD
  exact ⟨a1, fun k' n => by rw [a3, hDm]⟩

/-- **C131 fails: cut off in the name, mended by the next registration.** A session that was already
running can still register a name; then sessions can be begun again, but the next name, too, is
resolved as before, and a name nobody registered has its path. -/
theorem C131_glued_name (k : Kind) (q n2 p2 : Text) (hq : Clean q) (h2 : Clean n2) (hp2 : Clean p2) :
    let d := withText (withText (run env fresh ops).1.disk r k q) r k (entry n2 p2)
    (start d).2 = .loaded ∧
    ∀ k' n, ((start d).1.mem k').get? n =
      if k' = k ∧ n = q ++ n2 then some p2 else (history (run env fresh ops).2).lookup r k' n := by
  intro d
  have hd : d = withText (run env fresh ops).1.disk r k (entry (q ++ n2) p2) := by
    simp only [d, withText]
    congr 1
    funext r' k'
    simp only [setFile]
    split
    · rename_i h
      simp [appendFile, entry]
    · rename_i h; simp [h]
  rw [hd]
  obtain ⟨a1, -, a3⟩ := C131_complete env ops hc r hr k (q ++ n2) p2
    ⟨by simp [hq.1, h2.1], by simp [hq.2.1, h2.2.1], by simp [hq.2.2, h2.2.2]⟩ hp2
  exact ⟨a1, a3⟩

end Histories

/-- **C131 fails: the root.** If writing a new root is interrupted, sessions cannot be begun if
nothing had been written yet, and otherwise use what had been written as their root. -/
theorem C131_root (env : Env) (ops : List Op) (hc : ∀ ev ∈ (run env fresh ops).2, CleanEvent ev) (r q : Text)
    (hcr : CleanRoot r) (hq : q <+: r) :
    (q = [] → (start { (run env fresh ops).1.disk with rootFile := some q }).2 = .raised .indexError) ∧
    (q ≠ [] → (start { (run env fresh ops).1.disk with rootFile := some q }).2 = .loaded ∧
      (start { (run env fresh ops).1.disk with rootFile := some q }).1.root = some q ∧
      ∀ k n, ((start { (run env fresh ops).1.disk with rootFile := some q }).1.mem k).get? n =
        (history (run env fresh ops).2).lookup q k n) := by
  have hI := run_inv env fresh empty ops inv_fresh hc
  refine ⟨?_, ?_⟩
  · intro h; subst h; rfl
  · intro h
    have hcq : CleanRoot q := ⟨h, not_mem_of_prefix hq hcr.2.1, not_mem_of_prefix hq hcr.2.2⟩
    have hex : ∀ k, ∃ D : PyDict Text Text, loadPathFile ((run env fresh ops).1.disk.files q k) = .ok D ∧
        ∀ n, D.get? n = (history (run env fresh ops).2).lookup q k n := fun k => (hI.files q k).load
    choose D hD hDm using hex
    obtain ⟨a1, a2, a3⟩ := start_ok { (run env fresh ops).1.disk with rootFile := some q } q
      (loadRootFile_clean q hcq) D hD
    exact ⟨a1, a2, fun k n => by rw [a3, hDm]⟩

/-! ## No way back -/

/-- A session that is being made and has yet to read the file that cannot be read. -/
def Doomed (d : Disk) (s : Sess) : Prop :=
  s.born = false ∧ ∃ r k e, s.root = some r ∧ k ∈ s.todo ∧ loadPathFile (d.files r k) = .error e

/-- **C131 fails: no way back.** If no session is running and sessions cannot be begun, then no calls
whatever, in any number of attempts, change anything: no session ever gets to make a call. -/
theorem C131_forever (env : Env) (w : World) (hno : ∀ i, w.sess i = none) (e0 : Err)
    (hbad : (start w.disk).2 = .raised e0) (ts : List (ℕ × Turn)) :
    (w.turns env ts).1.disk = w.disk ∧ ∀ i s, (w.turns env ts).1.sess i = some s → s.born = false := by
  have hroot : (∃ e, loadRootFile w.disk.rootFile = .error e) ∨
      ∃ r k e, loadRootFile w.disk.rootFile = .ok (some r) ∧ loadPathFile (w.disk.files r k) = .error e := by
    cases hr : loadRootFile w.disk.rootFile with
    | error e => exact Or.inl ⟨e, rfl⟩
    | ok o =>
      cases o with
      | none => simp [start, newSession, hr, loadPaths] at hbad
      | some r =>
        by_cases hall : ∀ k, ∃ D, loadPathFile (w.disk.files r k) = .ok D
        · choose D hD using hall
          have := (start_ok w.disk r hr D hD).1
          rw [hbad] at this
          cases this
        · simp only [not_forall] at hall
          obtain ⟨k, hk⟩ := hall
          cases hl : loadPathFile (w.disk.files r k) with
          | error e => exact Or.inr ⟨r, k, e, rfl, hl⟩
          | ok D => exact absurd ⟨D, hl⟩ hk
  have main : ∀ (ts : List (ℕ × Turn)) (v : World), v.disk = w.disk →
      (∀ i s, v.sess i = some s → Doomed w.disk s) →
      (v.turns env ts).1.disk = w.disk ∧ ∀ i s, (v.turns env ts).1.sess i = some s → Doomed w.disk s := by
    intro ts
    induction ts with
    | nil => intro v h1 h2; exact ⟨h1, h2⟩
    | cons t ts ih =>
      intro v h1 h2
      obtain ⟨i, t⟩ := t
      have key : (v.turn env i t).1.disk = w.disk ∧ ∀ j s, (v.turn env i t).1.sess j = some s → Doomed w.disk s := by
        have put_none : (v.put i none).disk = w.disk ∧ ∀ j s, (v.put i none).sess j = some s → Doomed w.disk s := by
          refine ⟨h1, fun j s hs => ?_⟩
          by_cases hj : j = i
          · simp [World.put, hj] at hs
          · simp only [World.put, if_neg hj] at hs; exact h2 j s hs
        have put_some : ∀ s0, Doomed w.disk s0 → (v.put i (some s0)).disk = w.disk ∧
            ∀ j s, (v.put i (some s0)).sess j = some s → Doomed w.disk s := by
          intro s0 h0
          refine ⟨h1, fun j s hs => ?_⟩
          by_cases hj : j = i
          · simp only [World.put, hj, if_true, Option.some.injEq] at hs
            subst hs; exact h0
          · simp only [World.put, if_neg hj] at hs; exact h2 j s hs
        cases t with
        | begin =>
          unfold World.turn
          rcases hroot with ⟨e, hr⟩ | ⟨r, k, e, hr, hk⟩
          · rw [h1, hr]; exact put_none
          · rw [h1, hr]
            exact put_some _ ⟨rfl, r, k, e, rfl, by cases k <;> simp [readOrder], hk⟩
        | read =>
          cases hs : v.sess i with
          | none =>
            have : v.turn env i .read = (v, none) := by unfold World.turn; rw [hs]
            rw [this]; exact ⟨h1, h2⟩
          | some s =>
            obtain ⟨b1, r, k, e, b2, b3, b4⟩ := h2 i s hs
            cases htd : s.todo with
            | nil => rw [htd] at b3; cases b3
            | cons k' rest =>
              cases hl : loadPathFile (w.disk.files r k') with
              | error e' =>
                have : v.turn env i .read = (v.put i none, some (.raised e')) := by
                  unfold World.turn
                  rw [hs]
                  simp only [b2, htd, h1, hl, b1, Bool.false_eq_true, if_false]
                rw [this]; exact put_none
              | ok d =>
                have : v.turn env i .read = (v.put i
                    (some { s with mem := setMem s.mem k' d, todo := rest, born := s.born || rest.isEmpty }),
                  if rest = [] then some .loaded else none) := by
                  unfold World.turn
                  rw [hs]
                  simp only [b2, htd, h1, hl]
                rw [this]
                have hkk : k ≠ k' := by
                  intro hkk; subst hkk; rw [b4] at hl; cases hl
                have hmem : k ∈ rest := by
                  rw [htd] at b3
                  rcases List.mem_cons.1 b3 with b3 | b3
                  · exact absurd b3 hkk
                  · exact b3
                refine put_some _ ⟨?_, r, k, e, b2, hmem, b4⟩
                cases rest with
                | nil => cases hmem
                | cons x xs => simp [b1]
        | newPath k name arg co ans =>
          cases hs : v.sess i with
          | none =>
            have : v.turn env i (.newPath k name arg co ans) = (v, none) := by unfold World.turn; rw [hs]
            rw [this]; exact ⟨h1, h2⟩
          | some s =>
            obtain ⟨-, r, k', e, -, b3, -⟩ := h2 i s hs
            have htd : s.todo ≠ [] := by intro h; rw [h] at b3; cases b3
            have : v.turn env i (.newPath k name arg co ans) = (v, none) := by
              unfold World.turn; rw [hs]; simp only [if_neg htd]
            rw [this]; exact ⟨h1, h2⟩
        | setup root cu ans =>
          cases hs : v.sess i with
          | none =>
            have : v.turn env i (.setup root cu ans) = (v, none) := by unfold World.turn; rw [hs]
            rw [this]; exact ⟨h1, h2⟩
          | some s =>
            obtain ⟨-, r, k', e, -, b3, -⟩ := h2 i s hs
            have htd : s.todo ≠ [] := by intro h; rw [h] at b3; cases b3
            have : v.turn env i (.setup root cu ans) = (v, none) := by
              unfold World.turn; rw [hs]; simp only [if_neg htd]
            rw [this]; exact ⟨h1, h2⟩
      exact ih _ key.1 key.2
  obtain ⟨m1, m2⟩ := main ts w rfl (by intro i s hs; rw [hno i] at hs; cases hs)
  exact ⟨m1, fun i s hs => (m2 i s hs).1⟩

/-! ## In full -/

/-- C131 in full: whenever a call is interrupted, sessions can be begun afterwards and resolve all
names either as before the call or as after it. -/
def C131_full : Prop :=
  ∀ (env : Env) (ops : List Op), (∀ ev ∈ (run env fresh ops).2, CleanEvent ev) →
    ∀ (op : Op) (d : Disk), CleanEvent (op, (step env (run env fresh ops).1 op).2) →
      Torn env (run env fresh ops).1 op d → (start d).2 = .loaded ∧
      ((∀ k n, ((start d).1.mem k).get? n = (history (run env fresh ops).2).now k n) ∨
        ∀ k n, ((start d).1.mem k).get? n =
          (after (history (run env fresh ops).2) (op, (step env (run env fresh ops).1 op).2)).now k n)

theorem demo_ops_clean : ∀ ev ∈ (run idEnv fresh demoOps).2, CleanEvent ev := by
  have e : (run idEnv fresh demoOps).2 = demoOps.zip
      [.rootSet "/d".toList, .registered "/d/TNG".toList, .registered "/x".toList,
       .registered "/l".toList] := by rfl
  intro ev hev
  rw [e] at hev
  simp only [demoOps, List.zip_cons_cons, List.zip_nil_left, List.mem_cons,
    List.not_mem_nil, or_false] at hev
  rcases hev with rfl | rfl | rfl | rfl <;>
    simp [CleanEvent, Clean, CleanRoot]

theorem C131_full_false : ¬ C131_full := by
  intro h
  have hreg : (newPath idEnv (run idEnv fresh demoOps).1 .sim "new".toList (some "/n".toList) true []).2 =
      .registered "/n".toList := by decide +kernel
  have := h idEnv demoOps demo_ops_clean (.newPath .sim "new".toList (some "/n".toList) true [])
    (withText (run idEnv fresh demoOps).1.disk "/d".toList .sim "ne".toList)
    (by
      show CleanEvent (_, (newPath idEnv (run idEnv fresh demoOps).1 .sim "new".toList (some "/n".toList) true []).2)
      rw [hreg]; simp [CleanEvent, Clean])
    (Torn.entry .sim "new".toList (some "/n".toList) true [] "/d".toList "/n".toList "ne".toList
      (by decide +kernel) hreg ⟨"w /n\n".toList, by decide +kernel⟩)
  rw [C131_name_cut idEnv demoOps demo_ops_clean "/d".toList (by decide +kernel) .sim "new".toList "ne".toList
    (by simp [Clean]) ⟨"w".toList, by decide +kernel⟩ (by simp)] at this
  cases this.1

/-- A registration cut off in the path, and the next one. -/
example :
    let d := withText (withText (run idEnv fresh demoOps).1.disk "/d".toList .sim "new /da".toList) "/d".toList .sim
      (entry "two".toList "/t".toList)
    ((start d).1.mem .sim).get? "new".toList = some "/datwo".toList ∧
    ((start d).1.mem .sim).get? "two".toList = none ∧
    ((start d).1.mem .sim).get? "TNG".toList = some "/x".toList := by decide +kernel

/-- The root cut off, and the root file emptied. -/
example :
    (start { (run idEnv fresh demoOps).1.disk with rootFile := some "/da".toList }).1.root = some "/da".toList ∧
    ((start { (run idEnv fresh demoOps).1.disk with rootFile := some "/da".toList }).1.mem .sim).get? "TNG".toList
      = none ∧
    (start { (run idEnv fresh demoOps).1.disk with rootFile := some [] }).2 = .raised .indexError := by
  decide +kernel

end Verif.Paths
