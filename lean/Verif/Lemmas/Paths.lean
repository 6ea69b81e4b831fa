import Verif.Spec.Paths

namespace Verif.Paths
open Spec

theorem universalNewlines_append_clean (t u : Text) (h : '\r' ∉ t) :
    universalNewlines (t ++ u) = t ++ universalNewlines u := by
  induction t with
  | nil => rfl
  | cons c t ih =>
    simp only [List.mem_cons, not_or] at h
    have hc : ¬ c = '\r' := fun e => h.1 e.symm
    have : universalNewlines (c :: (t ++ u)) = c :: universalNewlines (t ++ u) := by
      rw [universalNewlines.eq_3]
      · simp [hc]
      · intro rest e; exact fun _ => hc e
    rw [List.cons_append, this, ih h.2, List.cons_append]

theorem linesAux_clean (t u cur : Text) (h : '\n' ∉ t) :
    linesAux cur (t ++ '\n' :: u) = (cur.reverse ++ t) :: linesAux [] u := by
  induction t generalizing cur with
  | nil => simp [linesAux]
  | cons c t ih =>
    simp only [List.mem_cons, not_or] at h
    have hc : ¬ c = '\n' := fun e => h.1 e.symm
    simp [linesAux, hc, ih (c :: cur) h.2]

theorem linesAux_single (t cur : Text) (h : '\n' ∉ t) (ht : cur ≠ [] ∨ t ≠ []) :
    linesAux cur t = [cur.reverse ++ t] := by
  induction t generalizing cur with
  | nil => simp at ht; simp [linesAux, ht]
  | cons c t ih =>
    simp only [List.mem_cons, not_or] at h
    have hc : ¬ c = '\n' := fun e => h.1 e.symm
    simp [linesAux, hc, ih (c :: cur) h.2]

theorem splitSp_clean (t : Text) (h : ' ' ∉ t) : splitSp t = [t] := by
  induction t with
  | nil => rfl
  | cons c t ih =>
    simp only [List.mem_cons, not_or] at h
    have hc : ¬ c = ' ' := fun e => h.1 e.symm
    simp [splitSp, hc, ih h.2]

theorem splitSp_entry (n p : Text) (hn : ' ' ∉ n) (hp : ' ' ∉ p) :
    splitSp (n ++ ' ' :: p) = [n, p] := by
  induction n with
  | nil => simp [splitSp, splitSp_clean p hp]
  | cons c t ih =>
    simp only [List.mem_cons, not_or] at hn
    have hc : ¬ c = ' ' := fun e => hn.1 e.symm
    simp [splitSp, hc, ih hn.2]

/-- The text of a registry file holding the given entries. -/
def fileText (es : List (Text × Text)) : Text := (es.map fun e => entry e.1 e.2).flatten

def CleanEntry (e : Text × Text) : Prop := Clean e.1 ∧ Clean e.2

theorem lines_fileText (es : List (Text × Text)) (h : ∀ e ∈ es, CleanEntry e) :
    lines (universalNewlines (fileText es)) = es.map fun e => e.1 ++ ' ' :: e.2 := by
  induction es with
  | nil => rfl
  | cons e es ih =>
    have he := h e (by simp)
    have hes := ih (fun e' he' => h e' (by simp [he']))
    obtain ⟨⟨h1, h2, h3⟩, ⟨h4, h5, h6⟩⟩ := he
    have hr : '\r' ∉ entry e.1 e.2 := by simp [entry, h3, h6]
    have hn : '\n' ∉ e.1 ++ ' ' :: e.2 := by simp [h2, h5]
    have : fileText (e :: es) = entry e.1 e.2 ++ fileText es := rfl
    rw [this, universalNewlines_append_clean _ _ hr]
    have : entry e.1 e.2 ++ universalNewlines (fileText es)
        = (e.1 ++ ' ' :: e.2) ++ '\n' :: universalNewlines (fileText es) := by
      simp [entry]
    unfold lines at hes ⊢
    rw [this, linesAux_clean _ _ _ hn, hes]
    simp

/-- Last entry wins. -/
def dictOf (d : PyDict Text Text) (es : List (Text × Text)) : PyDict Text Text :=
  es.foldl (fun d e => d.set e.1 e.2) d

theorem loadLines_clean (d : PyDict Text Text) (es : List (Text × Text))
    (h : ∀ e ∈ es, CleanEntry e) :
    loadLines d (es.map fun e => e.1 ++ ' ' :: e.2) = .ok (dictOf d es) := by
  induction es generalizing d with
  | nil => rfl
  | cons e es ih =>
    have he := h e (by simp)
    have hs := splitSp_entry e.1 e.2 he.1.1 he.2.1
    simp only [List.map_cons, loadLines, loadLine, hs]
    rw [ih _ (fun e' he' => h e' (by simp [he']))]
    rfl

theorem loadPathFile_fileText (es : List (Text × Text)) (h : ∀ e ∈ es, CleanEntry e) :
    loadPathFile (some (fileText es)) = .ok (dictOf [] es) := by
  unfold loadPathFile
  simp only [lines_fileText es h, loadLines_clean [] es h]

theorem fileText_append (es : List (Text × Text)) (n p : Text) :
    fileText (es ++ [(n, p)]) = fileText es ++ entry n p := by
  simp [fileText]

theorem dictOf_append (es : List (Text × Text)) (n p : Text) :
    dictOf [] (es ++ [(n, p)]) = (dictOf [] es).set n p := by
  simp [dictOf]

/-- A registry file that holds the map `m`. -/
def FileHolds (f : Option Text) (m : Text → Option Text) : Prop :=
  ∃ es : List (Text × Text), (∀ e ∈ es, CleanEntry e) ∧ f.getD [] = fileText es ∧
    ∀ n, (dictOf [] es).get? n = m n

theorem FileHolds.load {f : Option Text} {m : Text → Option Text} (h : FileHolds f m) :
    ∃ d, loadPathFile f = .ok d ∧ ∀ n, d.get? n = m n := by
  obtain ⟨es, hes, hf, hm⟩ := h
  cases f with
  | none =>
    refine ⟨[], rfl, fun n => ?_⟩
    rw [← hm n]
    cases es with
    | nil => rfl
    | cons e es =>
      have h0 : (0 : Nat) = (fileText (e :: es)).length := by rw [← hf]; rfl
      simp [fileText, entry] at h0
  | some t =>
    simp only [Option.getD_some] at hf
    exact ⟨_, by rw [hf]; exact loadPathFile_fileText es hes, hm⟩

/-- Relation between the concrete state and the abstract registry. -/
structure Inv (s : State) (a : Registry) : Prop where
  root : s.root = a.root
  rootFile : loadRootFile s.disk.rootFile = .ok a.root
  files : ∀ r k, FileHolds (s.disk.files r k) (a.lookup r k)
  mem : ∀ k n, (s.mem k).get? n = match a.root with
    | none => none
    | some r => a.lookup r k n

theorem inv_fresh : Inv fresh empty :=
  ⟨rfl, rfl, fun _ _ => ⟨[], by simp, rfl, fun _ => rfl⟩, fun _ _ => rfl⟩

theorem loadPaths_spec (s : State) (a : Registry)
    (hroot : s.root = a.root)
    (hfiles : ∀ r k, FileHolds (s.disk.files r k) (a.lookup r k)) :
    (loadPaths s).2 = .loaded ∧ (loadPaths s).1.disk = s.disk ∧ (loadPaths s).1.root = s.root ∧
    ∀ k n, ((loadPaths s).1.mem k).get? n = match a.root with
      | none => none
      | some r => a.lookup r k n := by
  unfold loadPaths
  cases hr : s.root with
  | none =>
    rw [hr] at hroot
    simp only [← hroot]
    exact ⟨trivial, trivial, trivial, fun _ _ => rfl⟩
  | some r =>
    rw [hr] at hroot
    simp only [← hroot]
    obtain ⟨l, hl, hl'⟩ := (hfiles r .lc).load
    obtain ⟨m, hm, hm'⟩ := (hfiles r .sim).load
    obtain ⟨p, hp, hp'⟩ := (hfiles r .prop).load
    simp only [hl, hm, hp]
    refine ⟨trivial, trivial, trivial, fun k n => ?_⟩
    cases k
    · simpa [setMem] using hm' n
    · simpa [setMem] using hl' n
    · simpa [setMem] using hp' n

theorem loadRootFile_clean (r : Text) (h : CleanRoot r) : loadRootFile (some r) = .ok (some r) := by
  obtain ⟨h1, h2, h3⟩ := h
  have hu : universalNewlines r = r := by
    simpa [universalNewlines] using universalNewlines_append_clean r [] h3
  have : lines r = [r] := by
    simpa [lines] using linesAux_single r [] h2 (Or.inr h1)
  simp [loadRootFile, hu, this]

theorem store_inv (s : State) (a : Registry) (r : Text) (k : Kind) (name p : Text)
    (h : Inv s a) (hr : s.root = some r) (hn : Clean name) (hp : Clean p)
    (op : Op) (hop : ∃ arg co ans, op = .newPath k name arg co ans) :
    Inv (store s r k name p) (after a (op, .registered p)) := by
  obtain ⟨arg, co, ans, rfl⟩ := hop
  have har : a.root = some r := by rw [← h.root, hr]
  refine ⟨?_, ?_, ?_, ?_⟩
  · simpa [store, after] using h.root
  · simpa [store, after] using h.rootFile
  · intro r' k'
    by_cases hrk : r' = r ∧ k' = k
    · obtain ⟨rfl, rfl⟩ := hrk
      obtain ⟨es, hes, hf, hm⟩ := h.files r' k'
      refine ⟨es ++ [(name, p)], ?_, ?_, ?_⟩
      · intro e he
        rcases List.mem_append.1 he with he | he
        · exact hes e he
        · simp only [List.mem_singleton] at he; subst he; exact ⟨hn, hp⟩
      · simp [store, setFile, appendFile, hf, fileText_append]
      · intro n
        rw [dictOf_append, PyDict.get?_set, hm n]
        by_cases hnn : name = n
        · subst hnn; simp [after, har]
        · have : ¬ n = name := fun e => hnn e.symm
          simp [after, hnn, this]
    · have h0 := h.files r' k'
      have e1 : (store s r k name p).disk.files r' k' = s.disk.files r' k' := by
        simp [store, setFile, hrk]
      have e2 : (after a (.newPath k name arg co ans, .registered p)).lookup r' k'
          = a.lookup r' k' := by
        funext n
        have : ¬ (a.root = some r' ∧ k' = k ∧ n = name) := by
          rintro ⟨h1, h2, _⟩
          rw [har] at h1
          exact hrk ⟨(Option.some.inj h1).symm, h2⟩
        simp [after, this]
      rw [e1, e2]; exact h0
  · intro k' n
    have hm := h.mem k' n
    rw [har] at hm
    simp only at hm
    by_cases hk : k' = k
    · subst hk
      simp only [store, setMem, if_true, PyDict.get?_set, after, har, true_and]
      by_cases hnn : name = n
      · subst hnn; simp
      · have : ¬ n = name := fun e => hnn e.symm
        simp [hnn, this, hm]
    · simp [store, setMem, hk, after, har, hm]

theorem newPathTail_cases (env : Env) (s : State) (r : Text) (k : Kind) (name : Text)
    (arg : Option Text) (ans : List Text) :
    (∃ p, newPathTail env s r k name arg ans = (store s r k name p, .registered p)) ∨
    ∃ o, (∀ p, o ≠ .registered p) ∧ (∀ p, o ≠ .rootSet p) ∧
      newPathTail env s r k name arg ans = (s, o) := by
  unfold newPathTail
  dsimp only
  split
  · split
    · exact .inr ⟨.waiting, by simp, by simp, rfl⟩
    · split
      · exact .inl ⟨_, rfl⟩
      · exact .inr ⟨_, by simp, by simp, rfl⟩
  · split
    · exact .inl ⟨_, rfl⟩
    · exact .inl ⟨_, rfl⟩

theorem newPath_cases (env : Env) (s : State) (k : Kind) (name : Text)
    (arg : Option Text) (co : Bool) (ans : List Text) :
    (∃ r p, s.root = some r ∧ newPath env s k name arg co ans
        = (store s r k name p, .registered p)) ∨
    ∃ o, (∀ p, o ≠ .registered p) ∧ (∀ p, o ≠ .rootSet p) ∧
      newPath env s k name arg co ans = (s, o) := by
  unfold newPath
  cases hr : s.root with
  | none => exact .inr ⟨_, by simp, by simp, rfl⟩
  | some r =>
    dsimp only
    have tail : ∀ l, (∃ r' p, some r = some r' ∧ newPathTail env s r k name arg l
          = (store s r' k name p, .registered p)) ∨
        ∃ o, (∀ p, o ≠ .registered p) ∧ (∀ p, o ≠ .rootSet p) ∧
          newPathTail env s r k name arg l = (s, o) := by
      intro l
      rcases newPathTail_cases env s r k name arg l with ⟨p, hp⟩ | h
      · exact .inl ⟨r, p, rfl, hp⟩
      · exact .inr h
    split
    · split
      · exact .inr ⟨_, by simp, by simp, rfl⟩
      · exact .inr ⟨_, by simp, by simp, rfl⟩
      · exact tail _
    · exact tail _

theorem after_other (a : Registry) (op : Op) (o : Outcome) (h1 : ∀ p, o ≠ .registered p)
    (h2 : ∀ p, o ≠ .rootSet p) : after a (op, o) = a := by
  cases op <;> cases o <;> simp_all [after]

theorem commitRoot_inv (s : State) (a : Registry) (h : Inv s a) (root : Text)
    (x : Text) (y : Bool) (z : List Text)
    (hc : CleanEvent (.setup x y z, (commitRoot s root).2)) :
    (commitRoot s root).2 = .rootSet root ∧
    Inv (commitRoot s root).1 (after a (.setup x y z, (commitRoot s root).2)) := by
  obtain ⟨e1, e2, e3, e4⟩ := loadPaths_spec
    { s with disk := { s.disk with rootFile := some root }, root := some root }
    { a with root := some root } rfl (by intro r k; exact h.files r k)
  unfold commitRoot at hc ⊢
  dsimp only at hc ⊢
  rw [e1] at hc ⊢
  simp only [if_true] at hc ⊢
  refine ⟨trivial, ?_, ?_, ?_, e4⟩
  · rw [e3]; rfl
  · rw [e2]; exact loadRootFile_clean root hc
  · intro r k; rw [e2]; exact h.files r k

theorem setupPath_cases (env : Env) (s : State) (root : Text) (cu : Bool) (ans : List Text) :
    (∃ r, setupPath env s root cu ans = commitRoot s r) ∨
    ∃ o, (∀ p, o ≠ .registered p) ∧ (∀ p, o ≠ .rootSet p) ∧
      setupPath env s root cu ans = (s, o) := by
  unfold setupPath
  split
  · exact .inr ⟨_, by simp, by simp, rfl⟩
  · split
    · split
      · split
        · exact .inr ⟨_, by simp, by simp, rfl⟩
        · exact .inr ⟨_, by simp, by simp, rfl⟩
        · exact .inl ⟨_, rfl⟩
      · exact .inl ⟨_, rfl⟩
    · exact .inr ⟨_, by simp, by simp, rfl⟩

theorem step_inv (env : Env) (s : State) (a : Registry) (op : Op) (h : Inv s a)
    (hc : CleanEvent (op, (step env s op).2)) :
    Inv (step env s op).1 (after a (op, (step env s op).2)) := by
  cases op with
  | newPath k name arg co ans =>
    simp only [step] at hc ⊢
    rcases newPath_cases env s k name arg co ans with ⟨r, p, hr, e⟩ | ⟨o, h1, h2, e⟩
    · rw [e] at hc ⊢
      exact store_inv s a r k name p h hr hc.1 hc.2 _ ⟨_, _, _, rfl⟩
    · rw [e]
      simpa only [after_other a _ o h1 h2] using h
  | setup root cu ans =>
    simp only [step] at hc ⊢
    rcases setupPath_cases env s root cu ans with ⟨r, e⟩ | ⟨o, h1, h2, e⟩
    · rw [e] at hc ⊢
      exact (commitRoot_inv s a h r _ _ _ hc).2
    · rw [e]
      simpa only [after_other a _ o h1 h2] using h
  | newSession =>
    simp only [step, newSession, h.rootFile]
    have hs := loadPaths_spec { s with root := a.root } a rfl h.files
    obtain ⟨e1, e2, e3, e4⟩ := hs
    rw [e1]
    refine ⟨?_, ?_, ?_, e4⟩
    · rw [e3]; rfl
    · rw [e2]; exact h.rootFile
    · rw [e2]; exact h.files

theorem run_inv (env : Env) (s : State) (a : Registry) (ops : List Op) (h : Inv s a)
    (hc : ∀ ev ∈ (run env s ops).2, CleanEvent ev) :
    Inv (run env s ops).1 ((run env s ops).2.foldl after a) := by
  induction ops generalizing s a with
  | nil => exact h
  | cons op ops ih =>
    simp only [run, List.mem_cons, forall_eq_or_imp, List.foldl_cons] at hc ⊢
    exact ih _ _ (step_inv env s a op h hc.1) hc.2

end Verif.Paths
