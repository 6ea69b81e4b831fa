import Verif.Props.InstField
import Mathlib.Tactic.Ring

/-!
# Examples for C39-C42, C75 and C76, and the witnesses against the full statements

A small instrument: numbers stand for functions, keywords, cubes, maps and positions.
-/

set_option linter.unusedSectionVars false

namespace Verif.Inst
open Spec

namespace Toy

/-- Beams and responses multiply, positions are added, noise is the seed. -/
def ph : Phys ℕ ℕ ℤ Unit ℤ ℤ ℤ ℤ ℤ ℤ ℕ ℤ Unit ℕ where
  emptyKw := 0
  noOffset := 0
  beam := fun _ f k _ _ _ => .ok (f + k)
  conv := fun _ c b _ => .ok (c * b)
  collapse := fun _ h f k => .ok (h * (f + k))
  sample := fun _ m ps => .ok (ps.map fun p => m + p)
  shift := fun p o => p + o
  noise := fun _ _ n _ s => .ok (List.replicate n s)
  zero := 0
  add := (· + ·)

def setup : Setup ℕ ℕ ℕ :=
  ⟨⟨none, none⟩, ⟨none, none⟩, ⟨none, none⟩, some 5, none, none, none, none⟩

/-- One number as a field. -/
def field (c : ℤ) : Field Unit ℤ ℕ := ⟨(), 3, [c], [none, none, none], [none], [1, 1, 1], true, false⟩

/-- Two numbers as a field with two properties. -/
def field2 (c d : ℤ) : Field Unit ℤ ℕ :=
  ⟨(), 3, [c, d], [none, none, none], [none, none], [1, 1, 1], true, false⟩

abbrev O := Op ℕ ℕ ℤ Unit ℤ ℤ ℕ Unit

def det (name : Option Name) (sp fr : ℕ) (off : ℤ) : DetArgs ℕ ℕ ℤ :=
  ⟨name, .fn sp, .dict 0, .fn fr, .dict 0, .fn 1, .dict 0, .pair off⟩

def add (name : Option Name) (sp fr : ℕ) (off : ℤ) : O := .addDetector (det name sp fr off)

/-- Three detectors, two of which share a beam and two a pointing. -/
def three : List O :=
  [add (some "a") 2 3 0, add (some "b") 5 7 10, add none 2 11 0]

def grid (c : ℤ) : O := .addField { grid := field c, name := some "f" }

def mapIt : O := .mapFields [] ⟨none, none, ()⟩

def history : List O := three ++ [grid 1, mapIt]

abbrev St := State ℕ ℕ ℤ Unit ℤ ℤ ℕ

def st : St := run ph (fresh setup) history

def sampling : SampleArgs ℤ ℕ ℤ :=
  { positions := [100, 200], withNoise := true, dt := some 1, seed := fun _ d => if d = "b" then 1000 else 0 }

end Toy

open Toy

/-- The history of the example maps a field and sampling succeeds, detector by detector. -/
example : sampleFields ph st ["f"] sampling =
    .ok [("f", [[106, 206], [1145, 1245], [122, 222]])] := by decide +kernel

/-- The premises of `C39_samples_partial`. -/
example : (∀ op ∈ history, Own op) ∧ ∃ out, sampleFields ph st ["f"] sampling = .ok out ∧
    ("f", [[106, 206], [1145, 1245], [122, 222]]) ∈ out := by
  refine ⟨?_, _, (by decide +kernel : sampleFields ph st ["f"] sampling =
    .ok [("f", [[106, 206], [1145, 1245], [122, 222]])]), by simp⟩
  simp [history, three, add, grid, mapIt, Own]

/-- The premises of `C39_refused`: a response is changed after mapping, and then a field is
added. -/
example : Changes ph st (.setResponse ["b"] .spectral (.fn 4) .none : O) ∧
    NoMapping (.addField { grid := field 4 } : O) ∧
    sampleFields ph (run ph (fresh setup) (history ++ .setResponse ["b"] .spectral (.fn 4) .none ::
      [.addField { grid := field 4 }]) : St) ["f"] sampling = .error .value := by
  refine ⟨⟨by decide +kernel, by decide +kernel⟩, trivial, ?_⟩
  refine C39_refused ph setup history [.addField { grid := field 4 }]
    (.setResponse ["b"] .spectral (.fn 4) .none) ⟨by decide +kernel, by decide +kernel⟩ ?_ _ rfl
    ["f"] sampling (Or.inl (by decide))
  simp [NoMapping]

/-- Removing or adding a detector has the same effect. -/
example : Changes ph st (.delDetectors ["a"] : O) ∧ Changes ph st (add none 1 1 1) := by
  exact ⟨⟨by decide +kernel, by decide⟩, ⟨"3", by decide +kernel⟩⟩

/-- After mapping again samples are those of the new response. -/
example : sampleFields ph (run ph (fresh setup)
    (history ++ [.setResponse ["b"] .spectral (.fn 4) .none, mapIt]) : St) ["f"] sampling =
    .ok [("f", [[106, 206], [1130, 1230], [122, 222]])] := by decide +kernel

/-- The grid is changed behind the instrument's back. -/
def Toy.edited : List O := history ++ [.editGrid "f" (field 7)]

theorem edited_samples : sampleFields ph (run ph (fresh setup) Toy.edited : St) ["f"] sampling =
    .ok [("f", [[106, 206], [1145, 1245], [122, 222]])] := by decide +kernel

/-- C39 is false in full: a grid that was added by reference and then changed. -/
theorem C39_full_false : ¬ C39_full := by
  intro h
  obtain ⟨a, m, h1, h2, h3⟩ := h ℕ ℕ ℤ Unit ℤ ℤ ℤ ℤ ℤ ℤ ℕ ℤ Unit ℕ ph setup Toy.edited ["f"]
    sampling _ edited_samples _ (List.mem_singleton.2 rfl)
  have hm : (run ph (fresh setup) Toy.edited : St).maps.get? "f" = some ⟨(), [6, 35, 22]⟩ := by
    rfl
  rw [hm] at h3
  simp only [Option.some.injEq] at h3
  subst h3
  obtain ⟨md, q1, -, q3⟩ := C42_first_property ph setup Toy.edited _ rfl "f" (field 7)
    (by rfl) a h1
  rw [h2] at q1
  simp only [Option.some.injEq] at q1
  subst q1
  have hn : (run ph (fresh setup) Toy.edited : St).detNames = ["a", "b", "2"] := by decide +kernel
  rw [hn] at q3
  obtain ⟨det, cube, b, hh, r, -, e2, -, e4, -, e6⟩ := (List.forall₂_cons.1 q3).1
  have hc : cube = 7 := by
    have : (field 7).props[0]? = some 7 := rfl
    rw [this] at e2
    simpa using e2.symm
  subst hc
  have e4' : 7 * b = hh := by simpa [ph] using e4
  have e6' : hh * ((r.fn : ℤ) + r.kw) = 6 := by simpa [ph] using e6
  have : (7 : ℤ) ∣ 6 := ⟨b * ((r.fn : ℤ) + r.kw), by rw [← e6', ← e4']; ring⟩
  revert this
  decide

/-! ### C40 -/

/-- Two beams and two pointings for three detectors. -/
example : beamGroups st (⟨none, none, ()⟩ : MapArgs ℤ Unit) = .ok [["a", "2"], ["b"]] ∧
    cloneGroups (samePointing st) st.detNames = .ok [["a", "2"], ["b"]] := by
  exact ⟨by decide +kernel, by decide +kernel⟩

/-- Mapping all at once and one by one. -/
example : st.detNames = ["a", "b", "2"] ∧ st.maps.get? "f" = some ⟨(), [6, 35, 22]⟩ ∧
    (mapFields ph (only st "b") ["f"] ⟨none, none, ()⟩).1.maps.get? "f" = some ⟨(), [35]⟩ ∧
    (mapFields ph (only st "2") ["f"] ⟨none, none, ()⟩).1.maps.get? "f" = some ⟨(), [22]⟩ :=
  ⟨by decide +kernel, rfl, rfl, rfl⟩

example : sampleFields ph (onlyMapped st "b" 1) ["f"] sampling = .ok [("f", [[1145, 1245]])] :=
  (C40_samples ph setup history st rfl "f" sampling _
    (by decide +kernel : sampleFields ph st ["f"] sampling =
      .ok [("f", [[106, 206], [1145, 1245], [122, 222]])])).2 1 "b" _ (by decide +kernel) rfl

/-! ### C41 -/

/-- A failing call. -/
example : (addDetector ph st (det (some "a") 1 1 1)).2 = .error .value ∧
    (addDetector ph st ⟨none, .fn 1, .none, .bad, .none, .fn 1, .none, .none⟩).2 =
      .error .value := ⟨by decide +kernel, by decide +kernel⟩

/-- C41 is false in full: the name `'instrument'`. -/
theorem C41_full_false : ¬ C41_full := by
  intro h
  have h1 := C41_instrument_failed ph (run ph (fresh setup) ([] : List O) : St)
    (by decide) 4 1 2 _ rfl
  have h2 := h ℕ ℕ ℤ Unit ℤ ℤ ℤ ℤ ℤ ℤ ℕ ℤ Unit ℕ ph setup [] _ _ h1.1
  have h3 := h1.2
  rw [h2] at h3
  have : (run ph (fresh setup) ([] : List O) : St).spatial.fn = none := rfl
  rw [h3] at this
  cases this

/-- A detector of that name is added, and then no field can be mapped. -/
example : (addDetector ph st (det (some "instrument") 1 1 1)).2 = .ok "instrument" ∧
    (addDetector ph st (det (some "instrument") 1 1 1)).1.fields.get? "f" = some (field 1) ∧
    (mapFields ph (addDetector ph st (det (some "instrument") 1 1 1)).1 ["f"]
      ⟨none, none, ()⟩).2 = .error .attribute := ⟨by decide +kernel, rfl, by decide +kernel⟩

/-- A history with plain names only. -/
example : (∀ op ∈ history, PlainNames op) ∧ st.detCounter = 3 ∧
    (addDetector ph st (det none 1 1 1)).2 = .ok "3" := by
  refine ⟨?_, by decide +kernel, by decide +kernel⟩
  have h : ∀ (n : String), n = "a" ∨ n = "b" ∨ n = "f" → ∀ k : ℕ, n ≠ Nat.repr k := by
    intro n hn k e
    have hd : ∀ c ∈ (Nat.repr k).toList, c.isDigit = true := by
      intro c hc
      exact Nat.isDigit_of_mem_toDigits (by decide : 0 < 10) (by decide) (by simpa [Nat.repr] using hc)
    rw [← e] at hd
    rcases hn with rfl | rfl | rfl <;> revert hd <;> decide
  intro op hop
  simp only [history, three, List.cons_append, List.nil_append, List.mem_cons,
    List.not_mem_nil, or_false] at hop
  rcases hop with rfl | rfl | rfl | rfl | rfl
  · intro n hn; simp [det] at hn; exact h n (by simp [hn])
  · intro n hn; simp [det] at hn; exact h n (by simp [hn])
  · intro n hn; simp [det] at hn
  · intro n hn; simp at hn; exact h n (by simp [hn])
  · trivial

/-- A detector called "4" is the fourth: automatic names are refused from then on. -/
example : (addDetector ph st (det (some "4") 1 1 1)).2 = .ok (Nat.repr (st.detCounter + 1)) ∧
    (addDetector ph (step ph st (add (some "4") 1 1 1)) (det none 1 1 1)).2 = .error .value :=
  ⟨by decide +kernel, by decide +kernel⟩

/-! ### C42 -/

/-- A field with one property. -/
example : (addField st { grid := field 3, idx := some 0 }).2 = .ok "1" ∧
    (addField st { grid := field 3, idx := some 1 }).2 = .error .index ∧
    (addField st { grid := field 3, idx := some 1, check := false }).2 = .ok "1" :=
  ⟨by decide +kernel, by decide +kernel, by decide +kernel⟩

/-- The second of two properties is chosen; the first is mapped. -/
example : (mapFields ph (addField st { grid := field2 3 4, idx := some 1 }).1 ["1"]
    ⟨none, some 1, ()⟩).1.maps.get? "1" = some ⟨(), [9, 21, 33]⟩ ∧
    (mapFields ph (addField st { grid := field2 4 3, idx := some 0 }).1 ["1"]
    ⟨none, some 1, ()⟩).1.maps.get? "1" = some ⟨(), [12, 28, 44]⟩ := ⟨rfl, rfl⟩

/-- C42 is false in full: the fourth property of a field. -/
theorem C42_full_false : ¬ C42_full := by
  intro h
  have := (h ℕ ℕ ℤ Unit ℤ ℤ ℤ ℤ ℤ ℤ ℕ ℤ Unit ℕ ph setup []
    { grid := ⟨(), 3, [1, 2, 3, 4], [none, none, none], [none, none, none, none], [1, 1, 1],
        true, false⟩ } _ rfl).2 3 (by decide) (by decide) ⟨"0", by decide +kernel⟩
  obtain ⟨n, hn⟩ := this
  rw [C42_fourth_refused _ _ 3 rfl rfl (by decide)] at hn
  cases hn

/-! ### C75 -/

example : (mapFields ph st ["f"] ⟨some (.pair 3 3), none, ()⟩).2 = .ok () ∧
    (mapFields ph st ["f"] ⟨some (.int 3), none, ()⟩).2 = .error .type :=
  ⟨by decide +kernel, by decide +kernel⟩

/-- C75 is false in full, for every field that can be mapped. -/
theorem C75_full_false : ¬ C75_full := by
  intro h
  exact C75_integer_fails ph setup history st rfl "f" 3 ()
    (h ℕ ℕ ℤ Unit ℤ ℤ ℤ ℤ ℤ ℤ ℕ ℤ Unit ℕ ph setup history st rfl "f" 3 3 ()
      (by decide +kernel) (by decide))

/-! ### C76 -/

/-- A default for the instrument is used by later detectors. -/
example : ((addDetector ph (setResponse ph st ["instrument"] .spatial (.fn 9) (.dict 8)).1
      ⟨none, .none, .none, .fn 1, .none, .fn 1, .none, .none⟩).1.detectors.get? "3").map (·.spatial) =
    some (some ⟨9, 8⟩) ∧
    wanted ph (.none) (.none) (setResponse ph st ["instrument"] .spatial (.fn 9) (.dict 8)).1.spatial =
      some ⟨9, 8⟩ := ⟨by decide +kernel, by decide +kernel⟩

end Verif.Inst
