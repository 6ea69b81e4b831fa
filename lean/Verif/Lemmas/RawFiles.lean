import Verif.Spec.RawFiles
import Mathlib.Tactic.Ring
import Mathlib.Data.List.Infix

/-!
# Lemmas about raw data files (for C106, C107)
-/

set_option linter.unusedSectionVars false

namespace Verif.Raw

open Spec

/-! ### Steps -/

theorem after_append (d : Disk) (s t : List Step) : after d (s ++ t) = after (after d s) t := by
  simp [after]

theorem after_other (d : Disk) (steps : List Step) (f : Path) (h : ∀ s ∈ steps, s.file ≠ f) : after d steps f = d f := by
  induction steps generalizing d with
  | nil => rfl
  | cons s t ih =>
    show after (s.apply d) t f = d f
    rw [ih _ (fun x hx => h x (List.mem_cons_of_mem _ hx))]
    have := h s (List.mem_cons_self ..)
    cases s <;> simp only [Step.apply, Step.file] at this ⊢ <;> rw [if_neg (Ne.symm this)]

theorem after_none (d : Disk) (steps : List Step) (f : Path) (h : after d steps f = none) : d f = none := by
  induction steps generalizing d with
  | nil => exact h
  | cons s t ih =>
    have := ih _ h
    cases s <;> simp only [Step.apply] at this <;> split at this <;> first | cases this | exact this

theorem after_fetches (d : Disk) (fs : List Path) (f : Path) :
    after d (fs.flatMap fetch) f = if f ∈ fs then some .whole else d f := by
  induction fs generalizing d with
  | nil => rfl
  | cons g fs ih =>
    rw [List.flatMap_cons, after_append, ih]
    by_cases h : f ∈ fs
    · rw [if_pos h, if_pos (List.mem_cons_of_mem _ h)]
    · rw [if_neg h]
      by_cases e : f = g
      · subst e; simp [after, fetch, Step.apply]
      · simp [after, fetch, Step.apply, e, h]

/-- If no step writes an existing file, existing files stay as they are, wherever the call is interrupted. -/
theorem fresh_keeps (d : Disk) (steps : List Step) (h : ∀ s ∈ steps, d s.file = none) (k : ℕ) (f : Path)
    (hf : d f ≠ none) : after d (steps.take k) f = d f := by
  apply after_other
  intro s hs e
  exact hf (e ▸ h s (List.mem_of_mem_take hs))

theorem take_even (fs : List Path) (q : ℕ) : (fs.flatMap fetch).take (2 * q) = (fs.take q).flatMap fetch := by
  induction fs generalizing q with
  | nil => simp
  | cons f fs ih =>
    cases q with
    | zero => simp
    | succ q =>
      rw [List.take_succ_cons, List.flatMap_cons, List.flatMap_cons, ← ih, show 2 * (q + 1) = (2 * q) + 1 + 1 by ring]
      rfl

theorem take_odd (fs : List Path) (q : ℕ) (f : Path) (h : fs[q]? = some f) :
    (fs.flatMap fetch).take (2 * q + 1) = (fs.take q).flatMap fetch ++ [.start f] := by
  induction fs generalizing q with
  | nil => simp at h
  | cons g fs ih =>
    cases q with
    | zero => simp at h; subst h; rfl
    | succ q =>
      rw [List.take_succ_cons, List.flatMap_cons, List.flatMap_cons, List.append_assoc, ← ih q (by simpa using h),
        show 2 * (q + 1) + 1 = (2 * q + 1) + 1 + 1 by ring]
      rfl

theorem fetches_length (fs : List Path) : (fs.flatMap fetch).length = 2 * fs.length := by
  induction fs with
  | nil => rfl
  | cons f fs ih => rw [List.flatMap_cons, List.length_append, ih]; simp [fetch]; ring

/-- What `download` does with a list of files: those that are missing are fetched. -/
def missing (fs : List Path) (d : Disk) : List Path := fs.filter (fun f => (d f).isNone)

theorem mem_missing (fs : List Path) (d : Disk) (f : Path) : f ∈ missing fs d ↔ f ∈ fs ∧ d f = none := by
  simp [missing, List.mem_filter]

theorem missing_completed (fs : List Path) (d : Disk) : Completed d (after d ((missing fs d).flatMap fetch)) fs := by
  intro f
  rw [after_fetches]
  simp only [mem_missing]

theorem missing_fresh (fs : List Path) (d : Disk) : ∀ s ∈ (missing fs d).flatMap fetch, d s.file = none := by
  intro s hs
  rw [List.mem_flatMap] at hs
  obtain ⟨f, hf, hs⟩ := hs
  have : s.file = f := by
    simp only [fetch, List.mem_cons, List.not_mem_nil, or_false] at hs
    rcases hs with rfl | rfl <;> rfl
  rw [this]
  exact ((mem_missing ..).1 hf).2

theorem missing_repeat (fs : List Path) (d d' : Disk) (h : Completed d d' fs) : missing fs d' = [] := by
  unfold missing
  rw [List.filter_eq_nil_iff]
  intro f hf
  rw [h f]
  split
  · simp
  · rename_i hn
    have : d f ≠ none := fun e => hn ⟨hf, e⟩
    simpa using this

/-- Interrupted between two files, and called again: complete. -/
theorem missing_between (fs : List Path) (d : Disk) (q : ℕ) :
    Completed d (after (after d (((missing fs d).flatMap fetch).take (2 * q)))
      ((missing fs (after d (((missing fs d).flatMap fetch).take (2 * q)))).flatMap fetch)) fs := by
  intro f
  rw [missing_completed fs _ f, take_even, after_fetches]
  by_cases h : f ∈ (missing fs d).take q
  · have hm := (mem_missing ..).1 (List.mem_of_mem_take h)
    rw [if_pos h, if_pos hm]
    simp
  · rw [if_neg h]

/-- Interrupted in the middle of a file: the file is incomplete. -/
theorem missing_middle (fs : List Path) (d : Disk) (q : ℕ) (f : Path) (h : (missing fs d)[q]? = some f) :
    after d (((missing fs d).flatMap fetch).take (2 * q + 1)) f = some .part := by
  rw [take_odd _ _ _ h, after_append]
  simp [after, Step.apply]

/-! ### Replacements -/

theorem prefix_before {pat A B : Path} {x : Char} (hx : x ∉ pat) : pat <+: A ++ x :: B ↔ pat <+: A := by
  constructor
  · intro h
    rcases List.prefix_append_right_inj A |>.mpr (List.nil_prefix (l := x :: B)) with ⟨_, _⟩
    rcases le_total pat.length A.length with hl | hl
    · exact List.prefix_of_prefix_length_le h (List.prefix_append ..) hl
    · have hp : A <+: pat := List.prefix_of_prefix_length_le (List.prefix_append ..) h hl
      obtain ⟨t, rfl⟩ := hp
      rw [List.prefix_append_right_inj] at h
      cases t with
      | nil => simp
      | cons c t =>
        rw [List.cons_prefix_cons] at h
        exact absurd (by simp [h.1]) hx
  · intro h
    exact h.trans (List.prefix_append ..)

theorem replace_split (pat rep A B : Path) (x : Char) (hx : x ∉ pat) (hp : pat ≠ []) (k : ℕ) (hk : k ≤ A.length) :
    replaceFrom pat rep k (A ++ x :: B) = replaceFrom pat rep k A ++ x :: replaceFrom pat rep 0 B := by
  induction A generalizing k with
  | nil =>
    have : k = 0 := by simpa using hk
    subst this
    show replaceFrom pat rep 0 (x :: B) = x :: replaceFrom pat rep 0 B
    rw [replaceFrom, if_neg]
    rw [List.isPrefixOf_iff_prefix]
    intro h
    cases pat with
    | nil => exact hp rfl
    | cons c pat =>
      rw [List.cons_prefix_cons] at h
      exact hx (by simp [h.1])
  | cons c A ih =>
    cases k with
    | succ k =>
      rw [List.cons_append, replaceFrom, replaceFrom]
      exact ih k (by simpa using hk)
    | zero =>
      rw [List.cons_append, replaceFrom, replaceFrom]
      have e : pat.isPrefixOf (c :: (A ++ x :: B)) = pat.isPrefixOf (c :: A) := by
        rw [Bool.eq_iff_iff, List.isPrefixOf_iff_prefix, List.isPrefixOf_iff_prefix, ← List.cons_append,
          prefix_before hx]
      rw [e]
      by_cases h : pat.isPrefixOf (c :: A)
      · have hl := (List.isPrefixOf_iff_prefix.1 h).length_le
        rw [if_pos h, if_pos h, ih _ (by simp at hl; omega), List.append_assoc]
      · rw [if_neg h, if_neg h, ih 0 (by simp), List.cons_append]

theorem replace_absent (pat rep A : Path) (h : ¬ pat <:+: A) : replaceFrom pat rep 0 A = A := by
  induction A with
  | nil => rfl
  | cons c A ih =>
    rw [replaceFrom, if_neg, ih]
    · exact fun h' => h (h'.trans (List.suffix_cons ..).isInfix)
    · rw [List.isPrefixOf_iff_prefix]
      exact fun h' => h h'.isInfix

theorem replace_length (pat rep A : Path) (hp : pat ≠ []) (hl : pat.length ≤ rep.length) (k : ℕ) :
    A.length - k ≤ (replaceFrom pat rep k A).length := by
  induction A generalizing k with
  | nil => simp
  | cons c A ih =>
    cases k with
    | succ k => rw [replaceFrom]; have := ih k; simp only [List.length_cons]; omega
    | zero =>
      rw [replaceFrom]
      split
      · have := ih (pat.length - 1)
        have := List.length_pos_iff.2 hp
        simp only [List.length_cons, List.length_append]
        omega
      · have := ih 0
        simp only [List.length_cons]
        omega

theorem replace_changes (pat rep A : Path) (hp : pat ≠ []) (hne : rep ≠ pat) (hl : pat.length ≤ rep.length)
    (h : pat <:+: A) : replaceFrom pat rep 0 A ≠ A := by
  induction A with
  | nil => exact absurd (List.infix_nil.1 h) hp
  | cons c A ih =>
    rw [replaceFrom]
    by_cases hc : pat.isPrefixOf (c :: A)
    · rw [if_pos hc]
      intro e
      obtain ⟨t, ht⟩ := List.isPrefixOf_iff_prefix.1 hc
      rcases hl.lt_or_eq with hlt | heq
      · have hlen := congrArg List.length e
        have := replace_length pat rep A hp hl (pat.length - 1)
        have := List.length_pos_iff.2 hp
        have h2 := congrArg List.length ht
        simp only [List.length_cons, List.length_append] at hlen h2
        omega
      · rw [← ht] at e
        exact hne (List.append_inj_left e heq.symm)
    · rw [if_neg hc]
      intro e
      simp only [List.cons.injEq, true_and] at e
      rw [List.infix_cons_iff] at h
      rcases h with h | h
      · exact hc (List.isPrefixOf_iff_prefix.2 h)
      · exact ih h e

theorem replace_same (pat A : Path) (hp : pat ≠ []) (k : ℕ) (hk : k ≤ A.length) :
    replaceFrom pat pat k A = A.drop k := by
  induction A generalizing k with
  | nil => simp [replaceFrom]
  | cons c A ih =>
    cases k with
    | succ k => rw [replaceFrom]; simpa using ih k (by simpa using hk)
    | zero =>
      rw [replaceFrom]
      split
      · rename_i h
        obtain ⟨t, ht⟩ := List.isPrefixOf_iff_prefix.1 h
        have hl := List.length_pos_iff.2 hp
        have hle := congrArg List.length ht
        simp only [List.length_append, List.length_cons] at hle
        rw [ih _ (by omega)]
        have : A.drop (pat.length - 1) = t := by
          have e := congrArg (List.drop pat.length) ht
          rw [List.drop_left] at e
          rw [e]
          obtain ⟨n, hn⟩ : ∃ n, pat.length = n + 1 := ⟨pat.length - 1, by omega⟩
          rw [hn]; rfl
        rw [this, ht]; rfl
      · rw [ih 0 (by simp)]; rfl

theorem number_digits (n : ℕ) : (toString n).toList = Nat.toDigits 10 n := by
  rw [show toString n = n.repr from rfl, Nat.toList_repr]

theorem number_no (n : ℕ) (c : Char) (hc : c.isDigit = false) : c ∉ (toString n).toList := by
  rw [number_digits]
  intro h
  have := Nat.isDigit_of_mem_toDigits (by decide) (by decide) h
  rw [hc] at this
  cases this

theorem number_inj (m n : ℕ) (h : (toString m).toList = (toString n).toList) : m = n := by
  rw [number_digits, number_digits] at h
  have := congrArg (fun l => Nat.ofDigitChars 10 l 0) h
  simpa using this

theorem three_inj (m n : ℕ) (h : three m = three n) : m = n := by
  unfold three at h
  simp only [number_digits] at h
  have := congrArg (fun l => Nat.ofDigitChars 10 l 0) h
  simpa [Nat.ofDigitChars_append] using this

theorem three_no (n : ℕ) (c : Char) (hc : c.isDigit = false) : c ∉ three n := by
  unfold three
  simp only [List.mem_append, List.mem_replicate]
  rintro (⟨-, rfl⟩ | h)
  · cases hc
  · exact number_no n c hc h

/-- Two texts without a slash after one with. -/
theorem slash_split {a a' b b' : Path} (h : a ++ '/' :: b = a' ++ '/' :: b') (hb : '/' ∉ b) (hb' : '/' ∉ b') :
    a = a' ∧ b = b' := by
  have key : ∀ {a a' b b' : Path}, a ++ '/' :: b = a' ++ '/' :: b' → '/' ∉ b → ∃ t, a = a' ++ t := by
    intro a a' b b' h hb
    rcases List.append_eq_append_iff.1 h with ⟨t, h1, h2⟩ | ⟨t, h1, h2⟩
    · cases t with
      | nil => exact ⟨[], by simpa using h1.symm⟩
      | cons c t =>
        simp only [List.cons_append, List.cons.injEq] at h2
        exact absurd (by rw [h2.2]; simp) hb
    · exact ⟨t, h1⟩
  obtain ⟨t, ht⟩ := key h hb
  obtain ⟨t', ht'⟩ := key h.symm hb'
  have : t = [] := by
    have := congrArg List.length ht
    have h2 := congrArg List.length ht'
    simp only [List.length_append] at this h2
    exact List.length_eq_zero_iff.1 (by omega)
  subst this
  have e : a = a' := by simpa using ht
  subst e
  exact ⟨rfl, by simpa using h⟩

theorem first_slash {a a' b b' : Path} (h : a ++ '/' :: b = a' ++ '/' :: b') (ha : '/' ∉ a) (ha' : '/' ∉ a') :
    a = a' ∧ b = b' := by
  have := congrArg List.reverse h
  simp only [List.reverse_append, List.reverse_cons, List.append_assoc] at this
  have := slash_split (by simpa using this) (by simpa using ha) (by simpa using ha')
  exact ⟨List.reverse_inj.1 this.2, List.reverse_inj.1 this.1⟩

end Verif.Raw
