import Verif.Props.Downloads

/-!
# C107 — deleting the raw data

`clean_raw` deletes nothing unless the user agrees, and then deletes the folder `raw` of the simulation and nothing
else; cleaning while formatting deletes the raw files of the snapshot that was formatted and of no other.  This holds
for paths that the shell takes literally.  If the path of the simulation contains a space, the folder named by the part
before the space is deleted.  For UM-Uchuu the twelfth data file is never deleted.
-/

set_option linter.unusedSectionVars false

namespace Verif.Raw

open Spec

theorem under_iff (w f : Path) : under w f = true ↔ Inside w f := by
  unfold under Inside
  rw [Bool.and_eq_true, List.isPrefixOf_iff_prefix, Bool.or_eq_true, beq_iff_eq, beq_iff_eq]
  constructor
  · rintro ⟨⟨t, rfl⟩, h⟩
    rw [List.drop_left] at h
    rcases h with rfl | h
    · left; simp
    · right
      cases t with
      | nil => cases h
      | cons c t => simp only [List.head?_cons, Option.some.injEq] at h; subst h; exact ⟨t, rfl⟩
  · rintro (rfl | ⟨t, rfl⟩)
    · simp
    · simp

instance (w f : Path) : Decidable (Inside w f) := decidable_of_iff _ (under_iff w f)

theorem words_one (w t : Path) (ht : ' ' ∉ t) (hne : w ++ t ≠ []) : wordsFrom w t = [w ++ t] := by
  induction t generalizing w with
  | nil => simp only [wordsFrom, List.append_nil] at hne ⊢; rw [if_neg hne]
  | cons c t ih =>
    have hc : ¬ c = ' ' := fun e => ht (by simp [e])
    rw [wordsFrom, if_neg hc, ih _ (fun h => ht (List.mem_cons_of_mem _ h)) (by simp)]
    simp

theorem words_first (w a t : Path) (ha : ' ' ∉ a) (hne : w ++ a ≠ []) :
    wordsFrom w (a ++ ' ' :: t) = (w ++ a) :: wordsFrom [] t := by
  induction a generalizing w with
  | nil =>
    simp only [List.append_nil] at hne
    rw [List.nil_append, wordsFrom, if_pos rfl, if_neg hne, List.append_nil]
  | cons c a ih =>
    have hc : ¬ c = ' ' := fun e => ha (by simp [e])
    rw [List.cons_append, wordsFrom, if_neg hc, ih _ (fun h => ha (List.mem_cons_of_mem _ h)) (by simp)]
    simp

/-- A path that the shell takes literally: absolute, and of plain characters. -/
structure Literal (p : Path) : Prop where
  absolute : p.head? = some '/'
  plain : ∀ c ∈ p, plainChar c = true

theorem Literal.no_space {p : Path} (h : ∀ c ∈ p, plainChar c = true) : ' ' ∉ p := fun hs => by
  have := h _ hs
  revert this
  decide

theorem rm_literal (cwd p : Path) (hp : Literal p) (d : Disk) (f : Path) :
    rmCommand cwd p d f = if Inside p f then none else d f := by
  have hne : p ≠ [] := by intro e; have := hp.absolute; rw [e] at this; cases this
  unfold rmCommand rm
  rw [words_one [] p (Literal.no_space hp.plain) (by simpa using hne)]
  simp only [List.nil_append, List.any_cons, List.any_nil, Bool.or_false, resolve, hp.absolute, if_true, under_iff]

theorem literal_append {a b : Path} (ha : Literal a) (hb : ∀ c ∈ b, plainChar c = true) : Literal (a ++ b) := by
  constructor
  · have := ha.absolute
    cases a with
    | nil => cases this
    | cons c a => exact this
  · intro c hc
    rcases List.mem_append.1 hc with h | h
    · exact ha.plain c h
    · exact hb c h

theorem prompt_yes (answers : List String) :
    prompt answers = some true ↔ answers.find? (fun a => a = "y" || a = "n") = some "y" := by
  induction answers with
  | nil => simp [prompt]
  | cons a as ih =>
    unfold prompt
    by_cases h1 : a = "y"
    · simp [h1]
    · by_cases h2 : a = "n"
      · subst h2; simp
      · simp only [h1, h2, if_false]
        rw [ih, List.find?_cons]
        simp [h1, h2]

/-- Nothing is deleted unless the first answer that is 'y' or 'n' is 'y'. -/
theorem C107_asked (cwd dir : Path) (answers : List String) (d : Disk)
    (h : answers.find? (fun a => a = "y" || a = "n") ≠ some "y") : cleanRaw cwd dir answers d = d := by
  unfold cleanRaw
  have := mt (prompt_yes answers).1 h
  split
  · contradiction
  · rfl

/-- If the user agrees: the folder `raw` of the simulation and all that is in it, and nothing else. -/
theorem C107_removes_partial (cwd dir : Path) (hdir : Literal dir) (answers : List String) (d : Disk)
    (h : answers.find? (fun a => a = "y" || a = "n") = some "y") (f : Path) :
    cleanRaw cwd dir answers d f = if Inside (dir ++ "/raw".toList) f then none else d f := by
  unfold cleanRaw
  rw [(prompt_yes answers).2 h]
  exact rm_literal cwd _ (literal_append hdir (by decide)) d f

/-- In particular the formatted data and the metadata are kept, and no raw file is left. -/
theorem C107_kept_partial (cwd dir : Path) (hdir : Literal dir) (answers : List String) (d : Disk) :
    cleanRaw cwd dir answers d (dir ++ "/data.hdf5".toList) = d (dir ++ "/data.hdf5".toList) ∧
    cleanRaw cwd dir answers d (dir ++ "/meta.npy".toList) = d (dir ++ "/meta.npy".toList) ∧
    cleanRaw cwd dir answers d (dir ++ "/meta_snaps.npy".toList) = d (dir ++ "/meta_snaps.npy".toList) := by
  have key : ∀ t : Path, ¬ Inside "/raw".toList t →
      cleanRaw cwd dir answers d (dir ++ t) = d (dir ++ t) := by
    intro t ht
    by_cases h : answers.find? (fun a => a = "y" || a = "n") = some "y"
    · rw [C107_removes_partial cwd dir hdir answers d h, if_neg]
      rintro (e | ⟨r, e⟩)
      · exact ht (Or.inl (List.append_cancel_left e))
      · rw [List.append_assoc] at e
        exact ht (Or.inr ⟨r, List.append_cancel_left e⟩)
    · rw [C107_asked cwd dir answers d h]
  exact ⟨key _ (by decide), key _ (by decide), key _ (by decide)⟩

/-- A path with a space, `a ++ " " ++ b`: everything in the folder `a` is deleted. -/
theorem C107_space_fails (cwd a b : Path) (ha : Literal a) (answers : List String) (d : Disk)
    (h : answers.find? (fun a => a = "y" || a = "n") = some "y") (f : Path) (hf : Inside a f) :
    cleanRaw cwd (a ++ ' ' :: b) answers d f = none := by
  have hne : a ≠ [] := by intro e; have := ha.absolute; rw [e] at this; cases this
  unfold cleanRaw
  rw [(prompt_yes answers).2 h]
  show rmCommand cwd ((a ++ ' ' :: b) ++ "/raw".toList) d f = none
  unfold rmCommand rm
  rw [List.append_assoc, List.cons_append, words_first [] a _ (Literal.no_space ha.plain) (by simpa using hne), if_pos]
  simp only [List.nil_append, List.any_cons]
  have : under (resolve cwd a) f = true := by
    unfold resolve
    rw [if_pos ha.absolute]
    exact (under_iff _ _).2 hf
  rw [this]
  rfl

/-- ... and the raw data are not deleted (`b` a plain relative path that names, from the working directory, another
folder). -/
theorem C107_space_left (cwd a b : Path) (ha : Literal a) (hb : ∀ c ∈ b, plainChar c = true) (hrel : b.head? ≠ some '/')
    (hb0 : b ≠ []) (answers : List String) (d : Disk) (f : Path)
    (hf : Inside (a ++ ' ' :: b ++ "/raw".toList) f)
    (hother : ¬ Inside (cwd ++ "/".toList ++ (b ++ "/raw".toList)) f) :
    cleanRaw cwd (a ++ ' ' :: b) answers d f = d f := by
  have hne : a ≠ [] := by intro e; have := ha.absolute; rw [e] at this; cases this
  by_cases h : answers.find? (fun a => a = "y" || a = "n") = some "y"
  · unfold cleanRaw
    rw [(prompt_yes answers).2 h]
    show rmCommand cwd ((a ++ ' ' :: b) ++ "/raw".toList) d f = d f
    unfold rmCommand rm
    have hsp : ' ' ∉ b ++ "/raw".toList := by
      rw [List.mem_append]
      rintro (h | h)
      · exact Literal.no_space hb h
      · exact absurd h (by decide)
    rw [List.append_assoc, List.cons_append, words_first [] a _ (Literal.no_space ha.plain) (by simpa using hne),
      words_one [] (b ++ "/raw".toList) hsp (by simp [hb0])]
    rw [if_neg]
    simp only [List.nil_append, List.any_cons, List.any_nil, Bool.or_false, Bool.or_eq_true, under_iff]
    have hr : (b ++ "/raw".toList).head? ≠ some '/' := by
      cases b with
      | nil => exact absurd rfl hb0
      | cons c b => exact hrel
    rw [show resolve cwd a = a from if_pos ha.absolute,
      show resolve cwd (b ++ "/raw".toList) = cwd ++ "/".toList ++ (b ++ "/raw".toList) from if_neg hr]
    rintro (h | h)
    · rcases hf with e | ⟨t, e⟩ <;> rcases h with e' | ⟨t', e'⟩ <;> rw [e'] at e <;>
        simp only [List.append_assoc, List.cons_append] at e
      · simp at e
      · have := List.append_cancel_left e
        simp at this
      · simp at e
      · have := List.append_cancel_left e
        simp at this
    · exact hother h
  · rw [C107_asked cwd _ answers d h]

/-! ### While formatting -/

theorem cleanSnap_literal (cwd dir : Path) (hdir : Literal dir) (files : List Path)
    (hf : ∀ g ∈ files, ∀ c ∈ g, plainChar c = true) (d : Disk) (f : Path) :
    cleanSnap cwd dir files d f = if ∃ g ∈ files, Inside (rawFile dir g) f then none else d f := by
  unfold cleanSnap
  induction files generalizing d with
  | nil => simp
  | cons g files ih =>
    rw [List.foldl_cons, ih (fun x hx => hf x (List.mem_cons_of_mem _ hx)),
      rm_literal cwd (rawFile dir g) (literal_append (literal_append hdir
        (by decide : ∀ c ∈ "/raw/".toList, plainChar c = true)) (hf g (List.mem_cons_self ..)))]
    by_cases h1 : ∃ g ∈ files, Inside (rawFile dir g) f
    · rw [if_pos h1, if_pos]
      obtain ⟨x, hx, h⟩ := h1
      exact ⟨x, List.mem_cons_of_mem _ hx, h⟩
    · rw [if_neg h1]
      by_cases h2 : Inside (rawFile dir g) f
      · rw [if_pos h2, if_pos ⟨g, List.mem_cons_self .., h2⟩]
      · rw [if_neg h2, if_neg]
        rintro ⟨x, hx, h⟩
        rcases List.mem_cons.1 hx with rfl | hx
        · exact h2 h
        · exact h1 ⟨x, hx, h⟩

theorem inside_file (dir g h : Path) (hg : '/' ∉ g) (hh : '/' ∉ h) : Inside (rawFile dir g) (rawFile dir h) ↔ h = g := by
  unfold rawFile
  constructor
  · rintro (e | ⟨t, e⟩)
    · exact List.append_cancel_left e
    · rw [List.append_assoc (dir ++ _)] at e
      have := List.append_cancel_left e
      exact absurd (by rw [this]; simp) hh
  · rintro rfl
    exact Or.inl rfl

/-- UniverseMachine: the file of the snapshot is deleted and the files of all others are kept. -/
theorem C107_um_partial (cwd dir : Path) (hdir : Literal dir) (name : ℕ → Path)
    (hname : ∀ s, ∀ c ∈ name s, plainChar c = true ∧ c ≠ '/') (s s' : ℕ) (d : Disk) :
    cleanSnap cwd dir (umSnapFiles name s) d (rawFile dir (name s'))
      = if name s' = name s then none else d (rawFile dir (name s')) := by
  rw [cleanSnap_literal cwd dir hdir _ (by
    intro g hg
    simp only [umSnapFiles, List.mem_cons, List.not_mem_nil, or_false] at hg
    subst hg
    exact fun c hc => (hname s c hc).1)]
  have hno : ∀ s, '/' ∉ name s := fun s h => (hname s _ h).2 rfl
  have : (∃ g ∈ umSnapFiles name s, Inside (rawFile dir g) (rawFile dir (name s'))) ↔ name s' = name s := by
    simp only [umSnapFiles, List.mem_cons, List.not_mem_nil, or_false, exists_eq_left]
    exact inside_file dir _ _ (hno s) (hno s')
  simp only [this]

theorem data_plain (df : ℕ) : ∀ c ∈ "data".toList ++ (toString df).toList, plainChar c = true := by
  intro c hc
  rcases List.mem_append.1 hc with h | h
  · exact (by decide : ∀ c ∈ "data".toList, plainChar c = true) c h
  · rw [number_digits] at h
    have := Nat.isDigit_of_mem_toDigits (by decide) (by decide) h
    simp [plainChar, Char.isAlphanum, this]

theorem replace_all (pat rep A : Path) (p : Char → Prop) (hr : ∀ c ∈ rep, p c) (hA : ∀ c ∈ A, p c) (k : ℕ) :
    ∀ c ∈ replaceFrom pat rep k A, p c := by
  induction A generalizing k with
  | nil => cases k <;> simp [replaceFrom]
  | cons a A ih =>
    have h1 := ih (fun c h => hA c (List.mem_cons_of_mem _ h))
    cases k with
    | succ k => rw [replaceFrom]; exact h1 k
    | zero =>
      rw [replaceFrom]
      split
      · intro c hc
        rcases List.mem_append.1 hc with h | h
        · exact hr c h
        · exact h1 _ c h
      · intro c hc
        rcases List.mem_cons.1 hc with h | h
        · rw [h]; exact hA a (List.mem_cons_self ..)
        · exact h1 _ c h

/-- Uchuu: data files 1 to 11 of the snapshot are deleted; a file of another snapshot is kept (unless its name is the
same). -/
theorem C107_uchuu_partial (cwd dir : Path) (hdir : Literal dir) (name : ℕ → Path)
    (hname : ∀ s, ∀ c ∈ name s, plainChar c = true ∧ c ≠ '/') (s s' df : ℕ) (d : Disk) :
    ((∃ i, 1 ≤ i ∧ i ≤ 11 ∧ withData df (name s') = withData i (name s)) →
      cleanSnap cwd dir (uchuuSnapFiles name s) d (uchuuFile dir (name s') df) = none) ∧
    ((¬ ∃ i, 1 ≤ i ∧ i ≤ 11 ∧ withData df (name s') = withData i (name s)) →
      cleanSnap cwd dir (uchuuSnapFiles name s) d (uchuuFile dir (name s') df) = d (uchuuFile dir (name s') df)) := by
  have hno : ∀ s i, '/' ∉ withData i (name s) := fun s i =>
    replace_no _ _ _ _ (data_no_slash i) (fun h => (hname s _ h).2 rfl) 0
  rw [cleanSnap_literal cwd dir hdir _ (by
    intro g hg
    simp only [uchuuSnapFiles, List.mem_map] at hg
    obtain ⟨i, _, rfl⟩ := hg
    exact replace_all _ _ _ _ (data_plain _) (fun c hc => (hname s c hc).1) 0)]
  have : (∃ g ∈ uchuuSnapFiles name s, Inside (rawFile dir g) (uchuuFile dir (name s') df))
      ↔ ∃ i, 1 ≤ i ∧ i ≤ 11 ∧ withData df (name s') = withData i (name s) := by
    unfold uchuuFile
    simp only [uchuuSnapFiles, List.mem_map, List.mem_range]
    constructor
    · rintro ⟨g, ⟨i, hi, rfl⟩, h⟩
      exact ⟨i + 1, by omega, by omega, (inside_file dir _ _ (hno _ _) (hno _ _)).1 h⟩
    · rintro ⟨i, h1, h2, h⟩
      refine ⟨withData i (name s), ⟨i - 1, by omega, ?_⟩, (inside_file dir _ _ (hno _ _) (hno _ _)).2 h⟩
      rw [Nat.sub_add_cancel h1]
  exact ⟨fun h => if_pos (this.2 h), fun h => if_neg (mt this.1 h)⟩

theorem replace_mono (pat r1 r2 A : Path) (h : r1.length ≤ r2.length) (k : ℕ) :
    (replaceFrom pat r1 k A).length ≤ (replaceFrom pat r2 k A).length := by
  induction A generalizing k with
  | nil => cases k <;> simp [replaceFrom]
  | cons a A ih =>
    cases k with
    | succ k => rw [replaceFrom, replaceFrom]; exact ih k
    | zero =>
      rw [replaceFrom, replaceFrom]
      split
      · have := ih (pat.length - 1)
        simp only [List.length_append]; omega
      · have := ih 0
        simp only [List.length_cons]; omega

theorem replace_inj (pat r1 r2 A : Path) (hp : pat ≠ []) (hA : pat <:+: A)
    (h : replaceFrom pat r1 0 A = replaceFrom pat r2 0 A) : r1 = r2 := by
  induction A with
  | nil => exact absurd (List.infix_nil.1 hA) hp
  | cons a A ih =>
    rw [replaceFrom, replaceFrom] at h
    by_cases hc : pat.isPrefixOf (a :: A)
    · rw [if_pos hc, if_pos hc] at h
      have hl := congrArg List.length h
      simp only [List.length_append] at hl
      have he : r1.length = r2.length := by
        rcases le_total r1.length r2.length with hh | hh
        · have := replace_mono pat r1 r2 A hh (pat.length - 1); omega
        · have := replace_mono pat r2 r1 A hh (pat.length - 1); omega
      exact List.append_inj_left h he
    · rw [if_neg hc, if_neg hc] at h
      rw [List.infix_cons_iff] at hA
      rcases hA with hA | hA
      · exact absurd (List.isPrefixOf_iff_prefix.2 hA) hc
      · exact ih hA (List.cons.inj h).2

/-- The data files of a snapshot have different names. -/
theorem withData_inj (nm : Path) (h : Occurs "data1".toList nm) (i j : ℕ) (e : withData i nm = withData j nm) : i = j :=
  number_inj _ _ (List.append_cancel_left (replace_inj _ _ _ _ data1_ne h e))

/-- Uchuu: the twelfth data file of the snapshot (and any with a higher number) is left behind. -/
theorem C107_uchuu_twelfth_fails (cwd dir : Path) (hdir : Literal dir) (name : ℕ → Path)
    (hname : ∀ s, ∀ c ∈ name s, plainChar c = true ∧ c ≠ '/') (s df : ℕ) (hs : Occurs "data1".toList (name s))
    (hdf : 12 ≤ df) (d : Disk) :
    cleanSnap cwd dir (uchuuSnapFiles name s) d (uchuuFile dir (name s) df) = d (uchuuFile dir (name s) df) := by
  apply (C107_uchuu_partial cwd dir hdir name hname s s df d).2
  rintro ⟨i, h1, h2, h⟩
  have := withData_inj _ hs _ _ h
  omega

/-- Uchuu: the data files that can be used (1, 2 and 3) are deleted. -/
theorem C107_uchuu_used_partial (cwd dir : Path) (hdir : Literal dir) (name : ℕ → Path)
    (hname : ∀ s, ∀ c ∈ name s, plainChar c = true ∧ c ≠ '/') (s df : ℕ) (h1 : 1 ≤ df) (h2 : df ≤ 11) (d : Disk) :
    cleanSnap cwd dir (uchuuSnapFiles name s) d (uchuuFile dir (name s) df) = none := by
  exact (C107_uchuu_partial cwd dir hdir name hname s s df d).1 ⟨df, h1, h2, rfl⟩

/-- Illustris: all the files of the snapshot are deleted, and those of all other snapshots are kept. -/
theorem C107_ill_partial (cwd dir pre : Path) (hdir : Literal dir) (s s' j : ℕ) (d : Disk) :
    cleanSnap cwd dir (illSnapFiles s) d (illFile dir pre s' j)
      = if s' = s then none else d (illFile dir pre s' j) := by
  rw [cleanSnap_literal cwd dir hdir _ (by
    intro g hg
    simp only [illSnapFiles, List.mem_cons, List.not_mem_nil, or_false] at hg
    subst hg
    intro c hc
    rcases List.mem_append.1 hc with h | h
    · exact (by decide : ∀ c ∈ "groups_".toList, plainChar c = true) c h
    · unfold three at h
      rcases List.mem_append.1 h with h | h
      · rw [(List.mem_replicate.1 h).2]; decide
      · rw [number_digits] at h
        have := Nat.isDigit_of_mem_toDigits (by decide) (by decide) h
        simp [plainChar, Char.isAlphanum, this])]
  have : (∃ g ∈ illSnapFiles s, Inside (rawFile dir g) (illFile dir pre s' j)) ↔ s' = s := by
    simp only [illSnapFiles, List.mem_cons, List.not_mem_nil, or_false, exists_eq_left]
    unfold illFile illFolder rawFile Inside
    constructor
    · rintro (h | ⟨t, h⟩)
      · simp only [List.append_assoc] at h
        have h := List.append_cancel_left (List.append_cancel_left (List.append_cancel_left h))
        exact absurd (show '/' ∈ three s by rw [← h]; simp) (three_no s '/' (by decide))
      · simp only [List.append_assoc] at h
        have h := List.append_cancel_left (List.append_cancel_left (List.append_cancel_left h))
        exact three_inj _ _ (first_slash (b := pre ++ (three s' ++ (".".toList ++ ((toString j).toList ++ ".hdf5".toList))))
          (b' := t) (by simpa using h) (three_no s' '/' (by decide)) (three_no s '/' (by decide))).1
    · rintro rfl
      right
      exact ⟨pre ++ (three s' ++ (".".toList ++ ((toString j).toList ++ ".hdf5".toList))), by simp⟩
  simp only [this]

/-- The whole property: for every path, the user's consent deletes the folder `raw` and nothing else. -/
def C107_full : Prop :=
  ∀ (cwd dir : Path) (answers : List String) (d : Disk) (f : Path), dir.head? = some '/' →
    answers.find? (fun a => a = "y" || a = "n") = some "y" →
    cleanRaw cwd dir answers d f = if Inside (dir ++ "/raw".toList) f then none else d f

/-- It fails: the path "/my sims". -/
theorem C107_full_false : ¬ C107_full := by
  intro h
  have h1 := h "/w".toList "/my sims".toList ["y"] (fun _ => some .whole) "/my/thesis".toList (by decide) (by decide)
  revert h1
  decide +kernel

/-! ### Examples -/

example : Literal "/home/u/simim/TNG100-1".toList := ⟨by decide, by decide⟩

/-- An answer that is not understood, then consent. -/
example : (["yes", "y"].find? (fun a => a = "y" || a = "n") = some "y") ∧
    cleanRaw "/w".toList "/s".toList ["yes", "y"] (fun _ => some .whole) "/s/raw/a".toList = none ∧
    cleanRaw "/w".toList "/s".toList ["yes", "y"] (fun _ => some .whole) "/s/data.hdf5".toList = some .whole ∧
    cleanRaw "/w".toList "/s".toList ["no", "n", "y"] (fun _ => some .whole) "/s/raw/a".toList = some .whole := by
  decide +kernel

/-- The folder /my is deleted, the raw data are not. -/
example : cleanRaw "/w".toList "/my sims".toList ["y"] (fun _ => some .whole) "/my/thesis".toList = none ∧
    cleanRaw "/w".toList "/my sims".toList ["y"] (fun _ => some .whole) "/my sims/raw/a".toList = some .whole := by
  decide +kernel

example : cleanSnap "/w".toList "/s".toList (uchuuSnapFiles (fun _ => "h_data1.h5".toList) 0) (fun _ => some .whole)
    "/s/raw/h_data3.h5".toList = none ∧
    cleanSnap "/w".toList "/s".toList (uchuuSnapFiles (fun _ => "h_data1.h5".toList) 0) (fun _ => some .whole)
    "/s/raw/h_data12.h5".toList = some .whole := by decide +kernel

example : cleanSnap "/w".toList "/s".toList (illSnapFiles 7) (fun _ => some .whole)
    (illFile "/s".toList "f".toList 7 3) = none ∧
    cleanSnap "/w".toList "/s".toList (illSnapFiles 7) (fun _ => some .whole)
    (illFile "/s".toList "f".toList 70 3) = some .whole := by decide +kernel

end Verif.Raw
