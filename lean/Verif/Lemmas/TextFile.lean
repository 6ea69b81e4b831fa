import Verif.Model.TextFile
import Verif.Spec.TextFile
import Mathlib.Tactic.Ring
import Mathlib.Tactic.NormNum

set_option linter.unusedSectionVars false

namespace Verif.Load

open Verif.Sim (Err)
open Verif.Load.Spec

/-! ## Splitting -/

theorem cutAt_ne (p : Char → Bool) (l : List Char) : cutAt p l ≠ [] := by
  induction l with
  | nil => simp [cutAt]
  | cons c cs ih =>
    unfold cutAt
    split
    · simp
    · split <;> simp

theorem cutAt_none (p : Char → Bool) (l : List Char) (h : ∀ c ∈ l, p c = false) : cutAt p l = [l] := by
  induction l with
  | nil => rfl
  | cons c cs ih =>
    unfold cutAt
    rw [if_neg (by simp [h c (by simp)]), ih (fun x hx => h x (by simp [hx]))]

theorem cutAt_append (p : Char → Bool) (w : List Char) (c : Char) (rest : List Char)
    (h : ∀ x ∈ w, p x = false) (hc : p c = true) : cutAt p (w ++ c :: rest) = w :: cutAt p rest := by
  induction w with
  | nil => simp [cutAt, hc]
  | cons a w ih =>
    rw [List.cons_append]
    conv_lhs => unfold cutAt
    rw [if_neg (by simp [h a (by simp)]), ih (fun x hx => h x (by simp [hx]))]

theorem uncomment_eq (l : List Char) (h : '#' ∉ l) : uncomment l = l := by
  unfold uncomment
  induction l with
  | nil => rfl
  | cons c l ih =>
    rw [List.mem_cons, not_or] at h
    rw [List.takeWhile_cons_of_pos (by simpa using fun e => h.1 e.symm), ih h.2]

/-! ## Words -/

theorem word_blank {w : List Char} (h : Word w) : ∀ c ∈ w, isBlank c = false := by
  intro c hc
  have := h.2 c hc
  simp only [List.mem_cons, List.not_mem_nil, or_false, not_or] at this
  obtain ⟨h1, h2, h3, h4, -⟩ := this
  simp only [isBlank, decide_eq_false h1, decide_eq_false h2, decide_eq_false h3, decide_eq_false h4,
    Bool.or_self]

theorem word_end {w : List Char} (h : Word w) : ∀ c ∈ w, isEnd c = false := by
  intro c hc
  have := h.2 c hc
  simp only [List.mem_cons, List.not_mem_nil, or_false, not_or] at this
  obtain ⟨-, -, -, -, h1, h2, -⟩ := this
  simp only [isEnd, decide_eq_false h1, decide_eq_false h2, Bool.or_self]

theorem word_hash {w : List Char} (h : Word w) : '#' ∉ w := by
  intro hc
  exact h.2 _ hc (by simp)

theorem word_prefix {w t : List Char} (h : Word w) (ht : t <+: w) (hne : t ≠ []) : Word t :=
  ⟨hne, fun c hc => h.2 c (ht.subset hc)⟩

theorem spaced_cons (w w' : List Char) (ws : List (List Char)) :
    spaced (w :: w' :: ws) = w ++ ' ' :: spaced (w' :: ws) := rfl

theorem mem_spaced {c : Char} : ∀ {ws : List (List Char)}, c ∈ spaced ws → c = ' ' ∨ ∃ w ∈ ws, c ∈ w
  | [], h => by simp [spaced] at h
  | [w], h => Or.inr ⟨w, by simp, h⟩
  | w :: w' :: ws, h => by
    rw [spaced_cons, List.mem_append, List.mem_cons] at h
    rcases h with h | h | h
    · exact Or.inr ⟨w, by simp, h⟩
    · exact Or.inl h
    · rcases mem_spaced h with h | ⟨x, hx, h⟩
      · exact Or.inl h
      · exact Or.inr ⟨x, by simp [List.mem_cons.1 hx], h⟩

theorem spaced_end {ws : List (List Char)} (h : ∀ w ∈ ws, Word w) : ∀ c ∈ spaced ws, isEnd c = false := by
  intro c hc
  rcases mem_spaced hc with rfl | ⟨w, hw, hcw⟩
  · rfl
  · exact word_end (h w hw) c hcw

theorem spaced_hash {ws : List (List Char)} (h : ∀ w ∈ ws, Word w) : '#' ∉ spaced ws := by
  intro hc
  rcases mem_spaced hc with h0 | ⟨w, hw, hcw⟩
  · exact absurd h0 (by decide)
  · exact word_hash (h w hw) hcw

theorem wordsOf_nil : wordsOf [] = [] := rfl

theorem wordsOf_word {w : List Char} (h : Word w) : wordsOf w = [w] := by
  unfold wordsOf
  rw [uncomment_eq w (word_hash h), cutAt_none _ _ (word_blank h)]
  simp [h.1]

theorem wordsOf_cons {w t : List Char} (h : Word w) (ht : '#' ∉ t) :
    wordsOf (w ++ ' ' :: t) = w :: wordsOf t := by
  unfold wordsOf
  rw [uncomment_eq, uncomment_eq t ht, cutAt_append _ _ _ _ (word_blank h) rfl]
  · simp [h.1]
  · simp only [List.mem_append, List.mem_cons, not_or]
    exact ⟨word_hash h, by decide, ht⟩

theorem wordsOf_spaced : ∀ {ws : List (List Char)}, (∀ w ∈ ws, Word w) → wordsOf (spaced ws) = ws
  | [], _ => rfl
  | [w], h => wordsOf_word (h w (by simp))
  | w :: w' :: ws, h => by
    have h' : ∀ x ∈ w' :: ws, Word x := fun x hx => h x (List.mem_cons_of_mem _ hx)
    rw [spaced_cons, wordsOf_cons (h w (by simp)) (spaced_hash h'), wordsOf_spaced h']

/-- The words of the beginning of a line. -/
theorem wordsOf_prefix : ∀ {ws : List (List Char)}, (∀ w ∈ ws, Word w) → ∀ t, t <+: spaced ws →
    wordsOf t = [] ∨ ∃ (j : ℕ) (w v : List Char), ws[j]? = some w ∧ v <+: w ∧ v ≠ [] ∧
      wordsOf t = ws.take j ++ [v]
  | [], _, t, ht => by
    rw [spaced, List.prefix_nil] at ht
    subst ht
    exact Or.inl rfl
  | [w], h, t, ht => by
    by_cases hn : t = []
    · subst hn; exact Or.inl rfl
    · exact Or.inr ⟨0, w, t, rfl, ht, hn, wordsOf_word (word_prefix (h w (by simp)) ht hn)⟩
  | w :: w' :: ws, h, t, ht => by
    have h' : ∀ x ∈ w' :: ws, Word x := fun x hx => h x (List.mem_cons_of_mem _ hx)
    have hw := h w (by simp)
    rw [spaced_cons] at ht
    by_cases hl : t.length ≤ w.length
    · have htw : t <+: w := by
        exact List.prefix_of_prefix_length_le ht (List.prefix_append _ _) hl
      by_cases hn : t = []
      · subst hn; exact Or.inl rfl
      · exact Or.inr ⟨0, w, t, rfl, htw, hn, wordsOf_word (word_prefix hw htw hn)⟩
    · obtain ⟨r, hr⟩ := ht
      have hpre : w <+: t := by
        refine List.prefix_of_prefix_length_le (l₃ := w ++ ' ' :: spaced (w' :: ws)) (List.prefix_append _ _)
          ⟨r, hr⟩ (by omega)
      obtain ⟨u, rfl⟩ := hpre
      rw [List.append_assoc, List.append_cancel_left_eq] at hr
      cases u with
      | nil => simp at hl
      | cons a u =>
        rw [List.cons_append, List.cons.injEq] at hr
        obtain ⟨rfl, hr⟩ := hr
        have hu : u <+: spaced (w' :: ws) := ⟨r, hr⟩
        right
        rw [wordsOf_cons hw (fun hc => spaced_hash h' (hu.subset hc))]
        rcases wordsOf_prefix h' u hu with h0 | ⟨j, x, v, h1, h2, h3, h4⟩
        · exact ⟨0, w, w, rfl, List.prefix_rfl, hw.1, by rw [h0]; rfl⟩
        · exact ⟨j + 1, x, v, by simpa using h1, h2, h3, by rw [h4]; rfl⟩

/-! ## Rows -/

theorem textRows_line (l rest : List Char) (hl : ∀ c ∈ l, isEnd c = false) :
    textRows (l ++ '\n' :: rest) = (if wordsOf l = [] then [] else [wordsOf l]) ++ textRows rest := by
  unfold textRows
  rw [cutAt_append _ _ _ _ hl rfl, List.map_cons]
  by_cases h : wordsOf l = []
  · simp [h]
  · rw [if_neg h, List.filter_cons_of_pos (by simp [h])]
    rfl

theorem textRows_last (l : List Char) (hl : ∀ c ∈ l, isEnd c = false) :
    textRows l = if wordsOf l = [] then [] else [wordsOf l] := by
  unfold textRows
  rw [cutAt_none _ _ hl]
  by_cases h : wordsOf l = [] <;> simp [h]

variable {F : Type}

theorem textRows_header (cs : List (List Char)) (hc : ∀ c ∈ cs, ∀ x ∈ c, isEnd x = false) (rest : List Char) :
    textRows (header cs ++ rest) = textRows rest := by
  induction cs with
  | nil => rfl
  | cons c cs ih =>
    have e : header (c :: cs) ++ rest = ('#' :: c) ++ '\n' :: (header cs ++ rest) := by
      simp [header, List.append_assoc]
    rw [e, textRows_line, ih (fun x hx => hc x (by simp [hx]))]
    · rfl
    · intro x hx
      rcases List.mem_cons.1 hx with rfl | hx
      · rfl
      · exact hc c (by simp) x hx

theorem textRows_body (hs : List (TextHalo F)) (hw : ∀ h ∈ hs, ∀ w ∈ words h, Word w) (rest : List Char) :
    textRows (body hs ++ rest) = hs.map words ++ textRows rest := by
  induction hs with
  | nil => rfl
  | cons h hs ih =>
    have e : body (h :: hs) ++ rest = spaced (words h) ++ '\n' :: (body hs ++ rest) := by
      simp [body, List.append_assoc]
    have hh := hw h (by simp)
    rw [e, textRows_line _ _ (spaced_end hh), ih (fun x hx => hw x (by simp [hx])), wordsOf_spaced hh,
      if_neg (by simp [words])]
    rfl

/-! ## Integers -/

theorem digitChar_toNat {d : ℕ} (h : d < 10) : (digitChar d).toNat = 48 + d := by
  have : d = 0 ∨ d = 1 ∨ d = 2 ∨ d = 3 ∨ d = 4 ∨ d = 5 ∨ d = 6 ∨ d = 7 ∨ d = 8 ∨ d = 9 := by omega
  rcases this with rfl | rfl | rfl | rfl | rfl | rfl | rfl | rfl | rfl | rfl <;> rfl

theorem digitChar_digit {d : ℕ} (h : d < 10) : '0' ≤ digitChar d ∧ digitChar d ≤ '9' := by
  have : d = 0 ∨ d = 1 ∨ d = 2 ∨ d = 3 ∨ d = 4 ∨ d = 5 ∨ d = 6 ∨ d = 7 ∨ d = 8 ∨ d = 9 := by omega
  rcases this with rfl | rfl | rfl | rfl | rfl | rfl | rfl | rfl | rfl | rfl <;> decide

theorem digitChar_plain {d : ℕ} (h : d < 10) :
    digitChar d ∉ [' ', '\t', '\x0b', '\x0c', '\n', '\r', '#', '-', '+'] := by
  have : d = 0 ∨ d = 1 ∨ d = 2 ∨ d = 3 ∨ d = 4 ∨ d = 5 ∨ d = 6 ∨ d = 7 ∨ d = 8 ∨ d = 9 := by omega
  rcases this with rfl | rfl | rfl | rfl | rfl | rfl | rfl | rfl | rfl | rfl <;> decide

theorem digitsVal_map (ds : List ℕ) (h : ∀ d ∈ ds, d < 10) (n : ℕ) :
    digitsVal n (ds.map digitChar) = some (ds.foldl (fun a d => 10 * a + d) n) := by
  induction ds generalizing n with
  | nil => rfl
  | cons d ds ih =>
    have hd := h d (by simp)
    rw [List.map_cons, digitsVal, if_pos (digitChar_digit hd), digitChar_toNat hd, Nat.add_sub_cancel_left,
      ih (fun x hx => h x (by simp [hx])), List.foldl_cons]

theorem foldl_digits (ds : List ℕ) : ds.reverse.foldl (fun a d => 10 * a + d) 0 = Nat.ofDigits 10 ds := by
  induction ds with
  | nil => rfl
  | cons d ds ih =>
    rw [List.reverse_cons, List.foldl_append, ih, Nat.ofDigits_cons]
    simp only [List.foldl_cons, List.foldl_nil]
    omega

/-- The digits of a number, in the order in which they are written. -/
theorem decimalNat_eq (n : ℕ) : ∃ ds : List ℕ, ds ≠ [] ∧ (∀ d ∈ ds, d < 10) ∧
    decimalNat n = ds.map digitChar ∧ ds.foldl (fun a d => 10 * a + d) 0 = n := by
  by_cases hn : n = 0
  · subst hn
    exact ⟨[0], by simp, by simp, rfl, rfl⟩
  · refine ⟨(Nat.digits 10 n).reverse, ?_, ?_, ?_, ?_⟩
    · simpa [Nat.digits_eq_nil_iff_eq_zero] using hn
    · intro d hd
      exact Nat.digits_lt_base (by norm_num) (List.mem_reverse.1 hd)
    · rw [decimalNat, if_neg hn]
    · rw [foldl_digits, Nat.ofDigits_digits]

theorem textInt_decimal (z : ℤ) : textInt (decimal z) = some z := by
  obtain ⟨ds, h1, h2, h3, h4⟩ := decimalNat_eq z.natAbs
  obtain ⟨d, ds, rfl⟩ := List.exists_cons_of_ne_nil h1
  have hv := digitsVal_map (d :: ds) h2 0
  rw [h4, ← h3] at hv
  have hp := digitChar_plain (h2 d (by simp))
  rw [List.map_cons] at h3
  unfold decimal
  split
  · rename_i hz
    have : ∀ cs : List Char, cs ≠ [] → textInt ('-' :: cs) = (digitsVal 0 cs).map (fun n : ℕ => -(n : ℤ)) := by
      intro cs hc
      cases cs with
      | nil => simp at hc
      | cons c cs => rfl
    rw [this _ (by rw [h3]; simp), hv]
    rw [Option.map_some]
    congr 1
    omega
  · rename_i hz
    have : textInt (decimalNat z.natAbs) =
        (digitsVal 0 (decimalNat z.natAbs)).map (fun n : ℕ => (n : ℤ)) := by
      rw [h3]
      simp only [List.mem_cons, List.not_mem_nil, or_false, not_or] at hp
      obtain ⟨-, -, -, -, -, -, -, q1, q2⟩ := hp
      unfold textInt
      split
      · rename_i he; simp at he
      · rename_i he; simp only [List.cons.injEq] at he; exact absurd he.1 q1
      · rename_i he; simp only [List.cons.injEq] at he; exact absurd he.1 q2
      · rename_i he; simp only [List.cons.injEq] at he; exact absurd he.1 q1
      · rename_i he; simp only [List.cons.injEq] at he; exact absurd he.1 q2
      · rfl
    rw [this, hv]
    rw [Option.map_some]
    congr 1
    omega

theorem decimal_word (z : ℤ) : Word (decimal z) := by
  obtain ⟨ds, h1, h2, h3, -⟩ := decimalNat_eq z.natAbs
  have key : Word (decimalNat z.natAbs) := by
    constructor
    · rw [h3]; simpa using h1
    · intro c hc
      rw [h3, List.mem_map] at hc
      obtain ⟨d, hd, rfl⟩ := hc
      have := digitChar_plain (h2 d hd)
      simp only [List.mem_cons, List.not_mem_nil, or_false, not_or] at this ⊢
      tauto
  unfold decimal
  split
  · constructor
    · simp
    · intro c hc
      rcases List.mem_cons.1 hc with rfl | hc
      · decide
      · exact key.2 c hc
  · exact key

end Verif.Load
