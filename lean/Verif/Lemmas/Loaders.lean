import Verif.Spec.Loaders
import Mathlib.Tactic.Common

set_option linter.unusedSectionVars false

namespace Verif.Load
open Verif.Sim (Err)
open Verif.Load.Spec

variable {K : Type} [Zero K]

/-- `a` is of the kind of `a0` and holds the rows `L`, then `m` rows of zeros. -/
def Filled (a0 a : Arr K) (L : List (List K)) (m : ℕ) : Prop :=
  match a0 with
  | .one _ => ∃ v, a = .one (v ++ List.replicate m 0) ∧ v.map (fun x => [x]) = L
  | .many w _ => a = .many w (L ++ List.replicate m (List.replicate w 0))

theorem filled_zeros (a0 : Arr K) (n : ℕ) : Filled a0 (zeros n a0) [] n := by
  cases a0 with
  | one v => exact ⟨[], by simp [zeros], rfl⟩
  | many w r => simp [Filled, zeros]

theorem Filled.rows_eq {a0 a : Arr K} {L : List (List K)} {m : ℕ} (h : Filled a0 a L m) :
    rows a = L ++ List.replicate m (zeroRow a0) ∧ SameKind a0 a := by
  cases a0 with
  | one v =>
    obtain ⟨v, rfl, rfl⟩ := h
    exact ⟨by simp [rows, zeroRow], trivial⟩
  | many w r =>
    simp only [Filled] at h
    subst h
    exact ⟨by simp [rows, zeroRow], rfl⟩

theorem assignRows_ok {α : Type} (pre src : List α) (m : ℕ) (z : α) (h : src.length ≤ m) :
    assignRows (pre ++ List.replicate m z) pre.length src
      = .ok (pre ++ src ++ List.replicate (m - src.length) z) := by
  unfold assignRows
  have e : min (pre ++ List.replicate m z).length (pre.length + src.length)
      - min (pre ++ List.replicate m z).length pre.length = src.length := by
    simp only [List.length_append, List.length_replicate]
    omega
  simp only [e, if_true]
  congr 2
  · simp
  · rw [List.drop_append]
    simp

theorem rows_length (a : Arr K) : (rows a).length = a.len := by
  cases a <;> simp [rows, Arr.len]

theorem assignArr_ok (a0 dst src : Arr K) (L : List (List K)) (m : ℕ) (h : Filled a0 dst L m)
    (hk : SameKind a0 src) (hm : src.len ≤ m) :
    ∃ a, assignArr dst L.length src = .ok a ∧ Filled a0 a (L ++ rows src) (m - src.len) := by
  cases a0 with
  | one v0 =>
    obtain ⟨v, rfl, rfl⟩ := h
    cases src with
    | many w r => exact absurd hk id
    | one s =>
      have := assignRows_ok v s m 0 hm
      simp only [assignArr, List.length_map, this]
      exact ⟨_, rfl, v ++ s, by simp [Arr.len], by simp [rows]⟩
  | many w0 r0 =>
    simp only [Filled] at h
    subst h
    cases src with
    | one s => exact absurd hk id
    | many w r =>
      simp only [SameKind] at hk
      subst hk
      have := assignRows_ok L r m (List.replicate w0 0) hm
      simp only [assignArr, if_true, this]
      exact ⟨_, rfl, by simp [Filled, rows, Arr.len]⟩

/-- The loop over the fields of one file. -/
theorem loadFieldsOf_ok (f : Chunk K) (w m : ℕ) (fields : List Name) (hnd : fields.Nodup)
    (base : Name → Arr K) (L : Name → List (List K))
    (hf : ∀ name ∈ fields, ∃ a, f.fields.get? name = some a ∧ SameKind (base name) a ∧ a.len = f.n)
    (hn : f.n ≤ m) (hL : ∀ name ∈ fields, (L name).length = w) :
    ∀ (result : PyDict Name (Arr K)) (last : ℕ),
      (∀ name ∈ fields, ∃ a, result.get? name = some a ∧ Filled (base name) a (L name) m) →
      ∃ result', loadFieldsOf f w result last fields
          = .ok (result', if fields = [] then last else f.n) ∧
        (∀ name ∈ fields, ∃ a, result'.get? name = some a ∧
          Filled (base name) a (L name ++ objects f name) (m - f.n)) ∧
        ∀ name, name ∉ fields → result'.get? name = result.get? name := by
  induction fields with
  | nil => intro result last _; exact ⟨result, rfl, by simp, fun _ _ => rfl⟩
  | cons name rest ih =>
    intro result last hres
    obtain ⟨a, ha, hk, hlen⟩ := hf name (by simp)
    obtain ⟨dst, hd, hfill⟩ := hres name (by simp)
    have hw := hL name (by simp)
    obtain ⟨a', ha', hfill'⟩ := assignArr_ok (base name) dst a (L name) m hfill hk (by omega)
    rw [hw] at ha'
    have hstep : loadField f w result name = .ok (result.set name a') := by
      simp [loadField, ha, hd, ha']
    obtain ⟨hnr, hndr⟩ := List.nodup_cons.1 hnd
    obtain ⟨result', h1, h2, h3⟩ := ih hndr (fun x hx => hf x (by simp [hx]))
      (fun x hx => hL x (by simp [hx])) (result.set name a') f.n (by
        intro x hx
        obtain ⟨b, hb, hb'⟩ := hres x (by simp [hx])
        have hne : ¬ name = x := by rintro rfl; exact hnr hx
        exact ⟨b, by simp [hne, hb], hb'⟩)
    refine ⟨result', ?_, ?_, ?_⟩
    · unfold loadFieldsOf
      simp only [hstep, ha, Option.map_some, Option.getD_some, hlen, h1, List.cons_ne_nil, if_false]
      split <;> rfl
    · intro x hx
      rcases List.mem_cons.1 hx with rfl | hx
      · refine ⟨a', ?_, ?_⟩
        · rw [h3 x hnr]; simp
        · have e : objects f x = rows a := by simp [objects, ha]
          rw [e, ← hlen]; exact hfill'
      · exact h2 x hx
    · intro x hx
      simp only [List.mem_cons, not_or] at hx
      rw [h3 x hx.2]
      have hne : ¬ name = x := fun h => hx.1 h.symm
      simp [hne]

/-- The loop over the files from file number `k` on. -/
theorem loadChunks_ok (c : Cat K) (chunks : List (Chunk K)) (fields : List Name)
    (hfl : c.files = chunks.map some) (hnd : fields.Nodup) (hne : fields ≠ [])
    (base : Name → Arr K)
    (hkind : ∀ f ∈ chunks, ∀ name ∈ fields, ∀ a, f.fields.get? name = some a →
      SameKind (base name) a)
    (hsz : ∀ f ∈ chunks, ∀ name ∈ fields, (objects f name).length = f.n)
    (hcomp : ∀ f ∈ chunks, 0 < f.n → ∀ name ∈ fields, (f.fields.get? name).isSome) :
    ∀ (post pre : List (Chunk K)) (result : PyDict Name (Arr K)) (m : ℕ), chunks = pre ++ post →
      count post ≤ m →
      (∀ name ∈ fields, ∃ a, result.get? name = some a ∧
        Filled (base name) a (pre.flatMap (objects · name)) m) →
      ∃ result', loadChunks c fields result (count pre)
          ((List.range post.length).map (pre.length + ·)) = .ok result' ∧
        (∀ name ∈ fields, ∃ a, result'.get? name = some a ∧
          Filled (base name) a (chunks.flatMap (objects · name)) (m - count post)) := by
  intro post
  induction post with
  | nil =>
    intro pre result m hc _ hres
    simp only [List.append_nil] at hc
    subst hc
    exact ⟨result, rfl, by simpa [count] using hres⟩
  | cons f post ih =>
    intro pre result m hc hm hres
    have hfm : f ∈ chunks := by rw [hc]; simp
    have hidx : c.chunk pre.length = .ok f := by
      simp [Cat.chunk, hfl, hc]
    have hcount : count (f :: post) = f.n + count post := by simp [count]
    have hrange : (List.range (f :: post).length).map (pre.length + ·)
        = pre.length :: (List.range post.length).map ((pre ++ [f]).length + ·) := by
      rw [List.length_cons, List.range_succ_eq_map]
      simp only [List.map_cons, List.map_map, Nat.add_zero, List.cons.injEq, true_and]
      apply List.map_congr_left
      intro x _
      simp only [Function.comp_apply, List.length_append, List.length_singleton, Nat.succ_eq_add_one]
      omega
    rw [hrange]
    unfold loadChunks
    simp only [hidx]
    by_cases hn : f.n = 0
    · rw [if_pos hn]
      have e : count (pre ++ [f]) = count pre := by simp [count, hn]
      obtain ⟨r', h1, h2⟩ := ih (pre ++ [f]) result m (by simp [hc]) (by omega) (by
        intro name hname
        obtain ⟨a, h1, h2⟩ := hres name hname
        refine ⟨a, h1, ?_⟩
        have : objects f name = [] := List.eq_nil_of_length_eq_zero (by rw [hsz f hfm name hname, hn])
        simpa [List.flatMap_append, this] using h2)
      rw [e] at h1
      refine ⟨r', h1, ?_⟩
      rw [hcount, hn, Nat.zero_add]
      exact h2
    · rw [if_neg hn]
      have hlenpre : ∀ name ∈ fields, (pre.flatMap (objects · name)).length = count pre := by
        intro name hname
        rw [List.length_flatMap, count]
        congr 1
        apply List.map_congr_left
        intro g hg
        exact hsz g (by rw [hc]; simp [hg]) name hname
      obtain ⟨r1, h1, h2, -⟩ := loadFieldsOf_ok f (count pre) m fields hnd base
        (fun name => pre.flatMap (objects · name)) (by
          intro name hname
          obtain ⟨a, ha⟩ := Option.isSome_iff_exists.1 (hcomp f hfm (by omega) name hname)
          refine ⟨a, ha, hkind f hfm name hname a ha, ?_⟩
          have := hsz f hfm name hname
          simp only [objects, ha] at this
          rw [← rows_length]; exact this) (by omega) hlenpre result 0 hres
      simp only [hne, if_false] at h1
      simp only [h1]
      have e : count pre + f.n = count (pre ++ [f]) := by simp [count]
      rw [e]
      obtain ⟨r', h3, h4⟩ := ih (pre ++ [f]) r1 (m - f.n) (by simp [hc]) (by omega) (by
        intro name hname
        obtain ⟨a, g1, g2⟩ := h2 name hname
        exact ⟨a, g1, by simpa [List.flatMap_append] using g2⟩)
      refine ⟨r', h3, ?_⟩
      rw [hcount]
      have e2 : m - (f.n + count post) = m - f.n - count post := by omega
      rw [e2]
      exact h4

theorem allocate_ok (total : ℕ) (f : Chunk K) (fields : List Name) (base : Name → Arr K)
    (h : ∀ name ∈ fields, f.fields.get? name = some (base name)) :
    allocate total f fields = .ok (fields.map (fun name => (name, zeros total (base name)))) := by
  unfold allocate
  induction fields with
  | nil => rfl
  | cons x xs ih =>
    simp only [mapE, h x (by simp), ih (fun n hn => h n (by simp [hn])), List.map_cons]

theorem get?_map_self {β : Type} (fields : List Name) (g : Name → β) (name : Name)
    (h : name ∈ fields) : PyDict.get? (fields.map (fun n => (n, g n))) name = some (g name) := by
  induction fields with
  | nil => simp at h
  | cons x xs ih =>
    simp only [List.map_cons, PyDict.get?_cons]
    by_cases hx : x = name
    · simp [hx]
    · rw [if_neg hx]
      exact ih (by simpa [Ne.symm hx] using h)

end Verif.Load
