import Verif.Lemmas.LCAdd
import Verif.Props.LightCone

/-!
# C33: properties added to lightcones belong to the source of each object
-/

set_option linter.unusedSectionVars false

namespace Verif.LC

open Verif.Sim (Err SnapMeta)
open Matrix

variable {K : Type} [Field K] [LinearOrder K] [IsStrictOrderedRing K] [FloorRing K]

/-! ## The specification -/

/-- `v` is the value of the property `key` of halo `index` in the catalogue of snapshot `snap`.
(`"masscheck"` is a second name for the mass.) -/
def SourceValue (data : ℕ → SnapData K) (cat : Catalogue K) (snap : ℕ) (key : String) (index : ℕ)
    (v : K) : Prop :=
  if key = "masscheck" then ∃ halo, (data snap).halos[index]? = some halo ∧ v = halo.mass
  else ∃ l, (cat snap).get? key = some l ∧ l[index]? = some v

/-- The value of a scalar property of an object is that of its source (`store` is the rounding to
single precision). -/
def ScalarRight (data : ℕ → SnapData K) (cat : Catalogue K) (store : K → K) (key : String)
    (r : Row K) (x : K) : Prop :=
  ∃ v, SourceValue data cat r.snap key r.index v ∧ x = store v

/-- The names of the components of a vector property. -/
def suffix : Fin 3 → String := ![("_x" : String), "_y", "_z"]

/-- The positions of an object are given as `pos_x`, `pos_y`, `pos_z`, where `pos_z` is the distance
along the line of sight, the first axis of the rotated system. -/
def axisOf : Fin 3 → Fin 3 := ![1, 2, 0]

/-- The component `b` of a vector property is that of the source, mirrored with `flips` and rotated
by the matrix `m`. -/
def VectorRight (data : ℕ → SnapData K) (cat : Catalogue K) (store : K → K) (m : Mat K)
    (flips : Fin 3 → ℤ) (key : String) (b : Fin 3) (r : Row K) (x : K) : Prop :=
  ∃ v : Vec K, (∀ a, SourceValue data cat r.snap (key ++ suffix a) r.index (v a)) ∧
    x = store ((m *ᵥ fun a => flips a * v a) (axisOf b))

/-- The dataset of a property in a file. -/
def LCFile.dataset (f : LCFile K) (key : String) : Option (List K) := f.full.bind (·.get? key)

/-- The lightcones `0 … n-1` have objects and datasets, and the objects come snapshot by
snapshot. -/
def Ready (snaps : List (SnapMeta K)) (n : ℕ) (d : Folder K) : Prop :=
  ∀ i, i < n → ∃ f rows full, d i = some f ∧ f.rows = some rows ∧ f.full = some full ∧
    Blocked rows snaps

/-! ## What is written -/

theorem valuesOf_get {st : Settings K} {data : ℕ → SnapData K} {cat : Catalogue K} {snap : ℕ}
    {key : String} {vals : List K} (h : valuesOf st data cat snap key = .ok vals) {j : ℕ} {v : K}
    (hv : vals[j]? = some v) : SourceValue data cat snap key j v := by
  unfold valuesOf at h
  rcases hl : loaded st (data snap) with e | halos
  · rw [hl] at h; cases h
  rw [hl] at h
  simp only at h
  unfold SourceValue
  by_cases hk : key = "masscheck"
  · rw [if_pos hk] at h ⊢
    simp only [Except.ok.injEq] at h
    subst h
    rw [List.getElem?_take] at hv
    split at hv
    · rw [List.getElem?_map] at hv
      rcases hh : (data snap).halos[j]? with - | halo
      · rw [hh] at hv; cases hv
      · rw [hh] at hv
        simp only [Option.map_some, Option.some.injEq] at hv
        exact ⟨halo, rfl, hv.symm⟩
    · cases hv
  · rw [if_neg hk] at h ⊢
    rcases hc : (cat snap).get? key with - | l
    · rw [hc] at h; cases h
    · rw [hc] at h
      simp only [Except.ok.injEq] at h
      subst h
      rw [List.getElem?_take] at hv
      split at hv
      · exact ⟨l, rfl, hv⟩
      · cases hv

theorem pick_forall {vals : List K} {block : List (Row K)} {l : List K}
    (h : pick vals block = .ok l) :
    List.Forall₂ (fun (r : Row K) v => vals[r.index]? = some v) block l := by
  unfold pick at h
  rw [mapE_ok_iff] at h
  rw [List.forall₂_iff_get]
  refine ⟨h.1.symm, ?_⟩
  intro i h1 h2
  obtain ⟨y, hy1, hy2⟩ := h.2 i block[i] (List.getElem?_eq_getElem h1)
  have : l[i] = y := by
    rw [List.getElem?_eq_getElem h2] at hy1
    exact Option.some.inj hy1
  simp only [List.get_eq_getElem]
  rcases hv : vals[block[i].index]? with - | v
  · rw [hv] at hy2; cases hy2
  · rw [hv] at hy2
    simp only [Except.ok.injEq] at hy2
    rw [this, hy2]

theorem forall2_map_right {α β γ : Type} {R : α → γ → Prop} {f : β → γ} {l : List α} {m : List β}
    (h : List.Forall₂ (fun a b => R a (f b)) l m) : List.Forall₂ R l (m.map f) := by
  induction h with
  | nil => exact List.Forall₂.nil
  | cons h _ ih => exact List.Forall₂.cons h ih

theorem forall2_mem {α β : Type} {R S : α → β → Prop} {l : List α} {m : List β}
    (h : List.Forall₂ R l m) (hi : ∀ a ∈ l, ∀ b, R a b → S a b) : List.Forall₂ S l m := by
  induction h with
  | nil => exact List.Forall₂.nil
  | cons h _ ih =>
    refine List.Forall₂.cons (hi _ (by simp) _ h) (ih ?_)
    intro a ha
    exact hi a (by simp [ha])

theorem scalar_fills (st : Settings K) (data : ℕ → SnapData K) (cat : Catalogue K) (store : K → K)
    (f : LCFile K) :
    Fills (scalarAdding st data cat store) f (ScalarRight data cat store) := by
  intro s key block vs h hsnap
  unfold scalarAdding at h ⊢
  simp only at h ⊢
  rcases hv : valuesOf st data cat s.index key with e | vals
  · rw [hv] at h; cases h
  rw [hv] at h
  simp only at h
  rcases hp : pick vals block with e | l
  · rw [hp] at h; cases h
  rw [hp] at h
  simp only [Except.ok.injEq] at h
  subst h
  refine ⟨rfl, ?_⟩
  intro v hvm
  simp only [List.mem_singleton] at hvm
  subst hvm
  simp only
  apply forall2_map_right
  apply forall2_mem (pick_forall hp)
  intro r hr x hx
  refine ⟨x, ?_, rfl⟩
  rw [hsnap r hr]
  exact valuesOf_get hv hx

theorem suffix_inj {k k' : String} {b b' : Fin 3} (h : k ++ suffix b = k' ++ suffix b') :
    k = k' ∧ b = b' := by
  have h1 := congrArg String.toList h
  rw [String.toList_append, String.toList_append] at h1
  have hlen : ∀ c : Fin 3, (suffix c).toList.length = 2 := by decide +kernel
  obtain ⟨h2, h3⟩ := List.append_inj' h1 (by rw [hlen, hlen])
  refine ⟨String.toList_inj.1 h2, ?_⟩
  have : ∀ c c' : Fin 3, (suffix c).toList = (suffix c').toList → c = c' := by decide +kernel
  exact this b b' h3

/-- The name of a dataset determines the property and component. -/
def VectorP (data : ℕ → SnapData K) (cat : Catalogue K) (store : K → K) (m : Mat K)
    (name : String) (r : Row K) (x : K) : Prop :=
  ∃ key b, name = key ++ suffix b ∧ VectorRight data cat store m (fun _ => 1) key b r x

theorem forall2_zip3 {α β : Type} {R1 R2 R3 : α → β → Prop} {l : List α} {x y z : List β}
    (h1 : List.Forall₂ R1 l x) (h2 : List.Forall₂ R2 l y) (h3 : List.Forall₂ R3 l z) :
    List.Forall₂ (fun a (q : β × β × β) => R1 a q.1 ∧ R2 a q.2.1 ∧ R3 a q.2.2) l
      (x.zip (y.zip z)) := by
  induction h1 generalizing y z with
  | nil => simp
  | cons h _ ih =>
    cases h2 with
    | cons h2 h2' =>
      cases h3 with
      | cons h3 h3' => exact List.Forall₂.cons ⟨h, h2, h3⟩ (ih h2' h3')

theorem vector_fills (st : Settings K) (data : ℕ → SnapData K) (cat : Catalogue K) (store : K → K)
    (f : LCFile K) :
    Fills (vectorAdding st data cat store) f (VectorP data cat store (f.paM * f.losM)) := by
  intro s key block vs h hsnap
  unfold vectorAdding at h ⊢
  simp only at h ⊢
  rcases hx : valuesOf st data cat s.index (key ++ "_x") with e | xs
  · rw [hx] at h; cases h
  rcases hy : valuesOf st data cat s.index (key ++ "_y") with e | ys
  · rw [hx, hy] at h; cases h
  rcases hz : valuesOf st data cat s.index (key ++ "_z") with e | zs
  · rw [hx, hy, hz] at h; cases h
  rw [hx, hy, hz] at h
  simp only at h
  rcases hpx : pick xs block with e | x
  · rw [hpx] at h; cases h
  rcases hpy : pick ys block with e | y
  · rw [hpx, hpy] at h; cases h
  rcases hpz : pick zs block with e | z
  · rw [hpx, hpy, hpz] at h; cases h
  rw [hpx, hpy, hpz] at h
  simp only [Except.ok.injEq] at h
  have hall := forall2_zip3 (pick_forall hpx) (pick_forall hpy) (pick_forall hpz)
  have main : ∀ b : Fin 3, List.Forall₂ (VectorP data cat store (f.paM * f.losM) (key ++ suffix b))
      block (((x.zip (y.zip z)).map (fun q => f.paM *ᵥ (f.losM *ᵥ ![q.1, q.2.1, q.2.2]))).map
        (fun v => store (v (axisOf b)))) := by
    intro b
    apply forall2_map_right
    apply forall2_map_right
    apply forall2_mem hall
    rintro r hr ⟨qx, qy, qz⟩ ⟨g1, g2, g3⟩
    refine ⟨key, b, rfl, ![qx, qy, qz], ?_, ?_⟩
    · intro a
      rw [hsnap r hr]
      fin_cases a
      · exact valuesOf_get hx g1
      · exact valuesOf_get hy g2
      · exact valuesOf_get hz g3
    · have e : (fun a : Fin 3 => (((fun _ => 1 : Fin 3 → ℤ) a : ℤ) : K) * ![qx, qy, qz] a) =
          ![qx, qy, qz] := by
        funext a
        simp
      rw [e, Matrix.mulVec_mulVec]
  subst h
  refine ⟨rfl, ?_⟩
  intro v hvm
  simp only [List.mem_cons, List.not_mem_nil, or_false] at hvm
  rcases hvm with rfl | rfl | rfl
  · exact main 0
  · exact main 1
  · exact main 2

/-! ## One call -/

/-- The new keys of a call of `add_properties`. -/
theorem addPlan_ok {st : Settings K} {metas : List (SnapMeta K)} {data : ℕ → SnapData K}
    {cat : Catalogue K} {store : K → K} {known : List String} {n : ℕ} {keys : List String}
    {d d' : Folder K}
    (h : exec (addPlan st metas data cat store known (some n) keys d) d = (d', .ok ())) :
    ∃ f0 full new, d 0 = some f0 ∧ f0.full = some full ∧
      (∀ k, k ∈ new ↔ k ∈ keys ∧ k ∉ posKeys ∧ full.get? k = none ∧
        (k ∈ known ∨ k = "masscheck")) ∧
      addPlan st metas data cat store known (some n) keys d =
        addPlanG (snapsUsed st metas) (scalarAdding st data cat store) n new d := by
  unfold addPlan at h ⊢
  rcases hd : d 0 with - | f0
  · rw [hd] at h; simp [exec] at h
  rw [hd] at h
  simp only at h ⊢
  rcases hf : f0.full with - | full
  · rw [hf] at h; simp [exec] at h
  refine ⟨f0, full, _, rfl, hf, ?_, rfl⟩
  intro k
  rw [List.mem_insertionSort, List.mem_filter]
  simp only [PyDict.has, Bool.and_eq_true, Bool.or_eq_true, decide_eq_true_eq, beq_iff_eq,
    Bool.not_eq_true', Option.isSome_eq_false_iff, Option.isNone_iff_eq_none]
  tauto

theorem addPosPlan_ok {st : Settings K} {metas : List (SnapMeta K)} {data : ℕ → SnapData K}
    {cat : Catalogue K} {store : K → K} {known : List String} {n : ℕ} {keys : List String}
    {d d' : Folder K}
    (h : exec (addPosPlan st metas data cat store known (some n) keys d) d = (d', .ok ())) :
    ∃ f0 full new, d 0 = some f0 ∧ f0.full = some full ∧
      (∀ k, k ∈ new ↔ k ∈ keys ∧ k ∉ oldPos full ∧ k ++ "_x" ∈ known) ∧
      addPosPlan st metas data cat store known (some n) keys d =
        addPlanG (snapsUsed st metas) (vectorAdding st data cat store) n new d := by
  unfold addPosPlan at h ⊢
  rcases hd : d 0 with - | f0
  · rw [hd] at h; simp [exec] at h
  rw [hd] at h
  simp only at h ⊢
  rcases hf : f0.full with - | full
  · rw [hf] at h; simp [exec] at h
  refine ⟨f0, full, _, rfl, hf, ?_, rfl⟩
  intro k
  rw [List.mem_insertionSort, List.mem_filter]
  simp only [Bool.and_eq_true, decide_eq_true_eq]

/-- **C33, scalar properties.** After a call of `add_properties` that ends without exception, every
object of every lightcone has, for each requested property that was not there before, the value of
its source halo in its source snapshot. -/
theorem C33_scalar (st : Settings K) (metas : List (SnapMeta K)) (data : ℕ → SnapData K)
    (cat : Catalogue K) (store : K → K) (known : List String) (n : ℕ) (keys : List String)
    (d d' : Folder K) (hd : Ready (snapsUsed st metas) n d)
    (h : exec (addPlan st metas data cat store known (some n) keys d) d = (d', .ok ()))
    (key : String) (hkey : key ∈ keys) (hpos : key ∉ posKeys)
    (hknown : key ∈ known ∨ key = "masscheck")
    (hnew : ∀ f0, d 0 = some f0 → f0.dataset key = none) (i : ℕ) (hi : i < n) :
    ∃ f f' rows l, d i = some f ∧ d' i = some f' ∧ f.rows = some rows ∧ f'.rows = some rows ∧
      f'.dataset key = some l ∧ List.Forall₂ (ScalarRight data cat store key) rows l := by
  obtain ⟨f0, full0, new, h0, hf0, hnewm, hplan⟩ := addPlan_ok h
  rw [hplan] at h
  obtain ⟨f, rows, full, hf, hr, hfull, hb⟩ := hd i hi
  obtain ⟨full', g1, g2, -⟩ := addPlanG_ok _ _ n new d d' h i hi f rows full hf hr hfull hb _
    (scalar_fills st data cat store f)
  have hin : key ∈ new := by
    rw [hnewm]
    refine ⟨hkey, hpos, ?_, hknown⟩
    have := hnew f0 h0
    unfold LCFile.dataset at this
    rw [hf0] at this
    exact this
  obtain ⟨-, l, hl1, hl2⟩ := g2 key (List.mem_flatMap.2 ⟨key, hin, by simp [scalarAdding]⟩)
  exact ⟨f, _, rows, l, hf, g1, hr, hr, hl1, hl2⟩

/-- **C33, vector properties (partial).** After a call of `add_pos_properties` that ends without
exception, the components of each requested property are those of the source halo rotated in the same
way as the positions.  Missing: the positions are also mirrored, the vectors are not
(`C33_vector_mirrored`). -/
theorem C33_vector_partial (st : Settings K) (metas : List (SnapMeta K)) (data : ℕ → SnapData K)
    (cat : Catalogue K) (store : K → K) (known : List String) (n : ℕ) (keys : List String)
    (d d' : Folder K) (hd : Ready (snapsUsed st metas) n d)
    (h : exec (addPosPlan st metas data cat store known (some n) keys d) d = (d', .ok ()))
    (key : String) (hkey : key ∈ keys) (hknown : key ++ "_x" ∈ known)
    (hnew : ∀ f0 full, d 0 = some f0 → f0.full = some full → key ∉ oldPos full) (i : ℕ)
    (hi : i < n) :
    ∃ f f' rows, d i = some f ∧ d' i = some f' ∧ f.rows = some rows ∧ f'.rows = some rows ∧
      ∀ b, ∃ l, f'.dataset (key ++ suffix b) = some l ∧
        List.Forall₂ (VectorRight data cat store (f.paM * f.losM) (fun _ => 1) key b) rows l := by
  obtain ⟨f0, full0, new, h0, hf0, hnewm, hplan⟩ := addPosPlan_ok h
  rw [hplan] at h
  obtain ⟨f, rows, full, hf, hr, hfull, hb⟩ := hd i hi
  obtain ⟨full', g1, g2, -⟩ := addPlanG_ok _ _ n new d d' h i hi f rows full hf hr hfull hb _
    (vector_fills st data cat store f)
  have hin : key ∈ new := by
    rw [hnewm]
    exact ⟨hkey, hnew f0 full0 h0 hf0, hknown⟩
  refine ⟨f, _, rows, hf, g1, hr, hr, ?_⟩
  intro b
  obtain ⟨-, l, hl1, hl2⟩ := g2 (key ++ suffix b) (List.mem_flatMap.2 ⟨key, hin, by
    fin_cases b <;> simp [vectorAdding, suffix]⟩)
  refine ⟨l, hl1, ?_⟩
  apply forall2_mem hl2
  rintro r - x ⟨key', b', he, hv⟩
  obtain ⟨rfl, rfl⟩ := suffix_inj he
  exact hv

theorem source_unique {data : ℕ → SnapData K} {cat : Catalogue K} {snap : ℕ} {key : String}
    {index : ℕ} {v w : K} (h1 : SourceValue data cat snap key index v)
    (h2 : SourceValue data cat snap key index w) : v = w := by
  unfold SourceValue at h1 h2
  split at h1
  · rw [if_pos ‹_›] at h2
    obtain ⟨a, ha, rfl⟩ := h1
    obtain ⟨b, hb, rfl⟩ := h2
    rw [ha] at hb
    cases hb
    rfl
  · rw [if_neg ‹_›] at h2
    obtain ⟨a, ha, ha'⟩ := h1
    obtain ⟨b, hb, hb'⟩ := h2
    rw [ha] at hb
    cases hb
    rw [ha'] at hb'
    exact Option.some.inj hb'

/-- **C33, mirrored boxes.** When the box was mirrored along an axis, the stored vector of EVERY
object whose source has a nonzero component along this axis is wrong: it is not the mirrored and
rotated vector.  (Numbers stored exactly.) -/
theorem C33_vector_mirrored (st : Settings K) (metas : List (SnapMeta K)) (data : ℕ → SnapData K)
    (cat : Catalogue K) (known : List String) (n : ℕ) (keys : List String)
    (d d' : Folder K) (hd : Ready (snapsUsed st metas) n d)
    (h : exec (addPosPlan st metas data cat id known (some n) keys d) d = (d', .ok ()))
    (key : String) (hkey : key ∈ keys) (hknown : key ++ "_x" ∈ known)
    (hnew : ∀ f0 full, d 0 = some f0 → f0.full = some full → key ∉ oldPos full) (i : ℕ)
    (hi : i < n) (f : LCFile K) (hf : d i = some f) (hrot : Spec.IsRotation (f.paM * f.losM))
    (rows : List (Row K)) (hrows : f.rows = some rows) (flips : Fin 3 → ℤ) (a : Fin 3)
    (ha : flips a = -1) (j : ℕ) (r : Row K) (hr : rows[j]? = some r) (v : K)
    (hv : SourceValue data cat r.snap (key ++ suffix a) r.index v) (hv0 : v ≠ 0) :
    ∃ b f' l x, d' i = some f' ∧ f'.dataset (key ++ suffix b) = some l ∧ l[j]? = some x ∧
      ¬ VectorRight data cat id (f.paM * f.losM) flips key b r x := by
  obtain ⟨g, f', rows', h1, h2, h3, -, h5⟩ := C33_vector_partial st metas data cat id known n keys
    d d' hd h key hkey hknown hnew i hi
  rw [hf] at h1
  cases h1
  rw [hrows] at h3
  cases h3
  have hx : ∀ b, ∃ l x, f'.dataset (key ++ suffix b) = some l ∧ l[j]? = some x ∧
      VectorRight data cat id (f.paM * f.losM) (fun _ => 1) key b r x := by
    intro b
    obtain ⟨l, hl, hall⟩ := h5 b
    obtain ⟨hj, hrj⟩ := List.getElem?_eq_some_iff.1 hr
    have hj' : j < l.length := by rw [← hall.length_eq]; exact hj
    refine ⟨l, l[j], hl, List.getElem?_eq_getElem hj', ?_⟩
    have := (List.forall₂_iff_get.1 hall).2 j hj hj'
    simp only [List.get_eq_getElem] at this
    rw [hrj] at this
    exact this
  choose l x hl hxj hvr using hx
  by_contra hcon
  push Not at hcon
  have hall : ∀ b, VectorRight data cat id (f.paM * f.losM) flips key b r (x b) := fun b =>
    hcon b f' (l b) (x b) h2 (hl b) (hxj b)
  obtain ⟨w, hw, -⟩ := hvr 0
  have hwv : ∀ w' : Vec K, (∀ a, SourceValue data cat r.snap (key ++ suffix a) r.index (w' a)) →
      w' = w := fun w' hw' => funext (fun a => source_unique (hw' a) (hw a))
  have heq : ∀ b, ((f.paM * f.losM) *ᵥ fun a => ((1 : ℤ) : K) * w a) (axisOf b) =
      ((f.paM * f.losM) *ᵥ fun a => (flips a : K) * w a) (axisOf b) := by
    intro b
    obtain ⟨w1, hw1, e1⟩ := hvr b
    obtain ⟨w2, hw2, e2⟩ := hall b
    rw [hwv w1 hw1] at e1
    rw [hwv w2 hw2] at e2
    simp only [id] at e1 e2
    rw [← e1, ← e2]
  have hvec : ((f.paM * f.losM) *ᵥ fun a => ((1 : ℤ) : K) * w a) =
      ((f.paM * f.losM) *ᵥ fun a => (flips a : K) * w a) := by
    funext c
    have hsurj : ∀ c : Fin 3, ∃ b, axisOf b = c := by decide +kernel
    obtain ⟨b, rfl⟩ := hsurj c
    exact heq b
  have hinv : (f.paM * f.losM).transpose * (f.paM * f.losM) = 1 := mul_eq_one_comm.1 hrot.1
  have h6 := congrArg (fun z => (f.paM * f.losM).transpose *ᵥ z) hvec
  simp only [Matrix.mulVec_mulVec, hinv, Matrix.one_mulVec] at h6
  have h7 := congrFun h6 a
  simp only [ha] at h7
  have hva : w a = v := source_unique (hw a) hv
  rw [hva] at h7
  push_cast at h7
  have h8 : v = 0 := by linarith
  exact hv0 h8

/-- What a call keeps: objects, matrices and datasets that were there. -/
def Keeps (n : ℕ) (d d' : Folder K) : Prop :=
  ∀ i, i < n → ∀ f, d i = some f → ∃ f', d' i = some f' ∧ f'.rows = f.rows ∧ f'.losM = f.losM ∧
    f'.paM = f.paM ∧ f'.tab = f.tab ∧ ∀ k l, f.dataset k = some l → f'.dataset k = some l

theorem addPlanG_keeps (snaps : List (SnapMeta K)) (add : Adding K) (n : ℕ) (keys : List String)
    (d d' : Folder K) (h : exec (addPlanG snaps add n keys d) d = (d', .ok ()))
    (hd : Ready snaps n d)
    (P : LCFile K → String → Row K → K → Prop) (hP : ∀ f, Fills add f (P f)) :
    Keeps n d d' ∧ Ready snaps n d' := by
  constructor
  · intro i hi f hf
    obtain ⟨f1, rows, full, hf1, hr, hfull, hb⟩ := hd i hi
    rw [hf] at hf1
    cases hf1
    obtain ⟨full', g1, g2, g3⟩ := addPlanG_ok snaps add n keys d d' h i hi f rows full hf hr hfull
      hb (P f) (hP f)
    refine ⟨_, g1, rfl, rfl, rfl, rfl, ?_⟩
    intro k l hk
    unfold LCFile.dataset at hk ⊢
    rw [hfull] at hk
    have hk' : full.get? k = some l := hk
    change full'.get? k = some l
    rw [g3 k, hk']
    intro hm
    rw [(g2 k hm).1] at hk'
    cases hk'
  · intro i hi
    obtain ⟨f, rows, full, hf, hr, hfull, hb⟩ := hd i hi
    obtain ⟨full', g1, -, -⟩ := addPlanG_ok snaps add n keys d d' h i hi f rows full hf hr hfull
      hb (P f) (hP f)
    exact ⟨_, rows, full', g1, hr, rfl, hb⟩

/-! ## Histories -/

/-- A call that adds properties. -/
inductive Call where
  | scalar (keys : List String)
  | vector (keys : List String)

/-- What the calls use: settings, snapshots, catalogues, and the number of lightcones. -/
structure Env (K : Type) where
  st : Settings K
  metas : List (SnapMeta K)
  data : ℕ → SnapData K
  cat : Catalogue K
  store : K → K
  known : List String
  n : ℕ

/-- The steps of a call. -/
def Call.plan (e : Env K) (d : Folder K) : Call → List (Step K)
  | .scalar keys => addPlan e.st e.metas e.data e.cat e.store e.known (some e.n) keys d
  | .vector keys => addPosPlan e.st e.metas e.data e.cat e.store e.known (some e.n) keys d

/-- Calls one after the other, until one raises an exception. -/
def session (e : Env K) : List Call → Folder K → Folder K × Except Err Unit
  | [], d => (d, .ok ())
  | c :: cs, d =>
    match exec (c.plan e d) d with
    | (d', .error er) => (d', .error er)
    | (d', .ok ()) => session e cs d'

theorem call_keeps (e : Env K) (c : Call) (d d' : Folder K)
    (h : exec (c.plan e d) d = (d', .ok ())) (hd : Ready (snapsUsed e.st e.metas) e.n d) :
    Keeps e.n d d' ∧ Ready (snapsUsed e.st e.metas) e.n d' := by
  cases c with
  | scalar keys =>
    simp only [Call.plan] at h
    obtain ⟨f0, full0, new, -, -, -, hplan⟩ := addPlan_ok h
    rw [hplan] at h
    exact addPlanG_keeps _ _ _ _ _ _ h hd _ (scalar_fills e.st e.data e.cat e.store)
  | vector keys =>
    simp only [Call.plan] at h
    obtain ⟨f0, full0, new, -, -, -, hplan⟩ := addPosPlan_ok h
    rw [hplan] at h
    exact addPlanG_keeps _ _ _ _ _ _ h hd _ (vector_fills e.st e.data e.cat e.store)

theorem Keeps.refl (n : ℕ) (d : Folder K) : Keeps n d d :=
  fun _ _ f hf => ⟨f, hf, rfl, rfl, rfl, rfl, fun _ _ h => h⟩

theorem Keeps.trans {n : ℕ} {d d' d'' : Folder K} (h1 : Keeps n d d') (h2 : Keeps n d' d'') :
    Keeps n d d'' := by
  intro i hi f hf
  obtain ⟨f', a1, a2, a3, a4, a5, a6⟩ := h1 i hi f hf
  obtain ⟨f'', b1, b2, b3, b4, b5, b6⟩ := h2 i hi f' a1
  exact ⟨f'', b1, b2.trans a2, b3.trans a3, b4.trans a4, b5.trans a5,
    fun k l h => b6 k l (a6 k l h)⟩

/-- **C33, histories.** Calls that add properties never change the objects or properties that are
already there. -/
theorem C33_kept (e : Env K) (cs : List Call) (d d' : Folder K)
    (h : session e cs d = (d', .ok ())) (hd : Ready (snapsUsed e.st e.metas) e.n d) :
    Keeps e.n d d' ∧ Ready (snapsUsed e.st e.metas) e.n d' := by
  induction cs generalizing d with
  | nil =>
    simp only [session, Prod.mk.injEq, and_true] at h
    subst h
    exact ⟨Keeps.refl _ _, hd⟩
  | cons c cs ih =>
    unfold session at h
    rcases hx : exec (c.plan e d) d with ⟨d1, er | u⟩
    · rw [hx] at h; simp at h
    · rw [hx] at h
      simp only at h
      obtain ⟨h1, h2⟩ := call_keeps e c d d1 hx hd
      obtain ⟨h3, h4⟩ := ih d1 h h2
      exact ⟨h1.trans h3, h4⟩

/-! ## After building -/

theorem blockOf_parts (st : Settings K) (sky : Sky K) (parts : List (Part K))
    (hnd : (parts.map (fun P => P.s.index)).Nodup) (P : Part K) (hP : P ∈ parts) :
    blockOf (parts.flatMap (partRows st sky)) P.s = partRows st sky P := by
  have hsnap : ∀ (Q : Part K), ∀ r ∈ partRows st sky Q, r.snap = Q.s.index := by
    intro Q r hr
    obtain ⟨i, -, c, -, rfl⟩ := mem_partRows hr
    rfl
  unfold blockOf
  rw [List.filter_flatMap]
  induction parts with
  | nil => simp at hP
  | cons Q parts ih =>
    rw [List.map_cons, List.nodup_cons] at hnd
    rw [List.flatMap_cons]
    rcases List.mem_cons.1 hP with rfl | hP
    · have h1 : (partRows st sky P).filter (fun r => decide (r.snap = P.s.index)) =
          partRows st sky P := by
        rw [List.filter_eq_self]
        intro r hr
        simp [hsnap P r hr]
      have h2 : parts.flatMap (fun Q => (partRows st sky Q).filter
          (fun r => decide (r.snap = P.s.index))) = [] := by
        rw [List.flatMap_eq_nil_iff]
        intro Q hQ
        rw [List.filter_eq_nil_iff]
        intro r hr
        simp only [decide_eq_true_eq]
        intro he
        rw [hsnap Q r hr] at he
        exact hnd.1 (List.mem_map.2 ⟨Q, hQ, he⟩)
      rw [h1, h2, List.append_nil]
    · have h1 : (partRows st sky Q).filter (fun r => decide (r.snap = P.s.index)) = [] := by
        rw [List.filter_eq_nil_iff]
        intro r hr
        simp only [decide_eq_true_eq]
        intro he
        rw [hsnap Q r hr] at he
        exact hnd.1 (List.mem_map.2 ⟨P, hP, he.symm⟩)
      rw [h1, List.nil_append]
      exact ih hnd.2 hP

/-- The objects of a lightcone come snapshot by snapshot. -/
theorem built_blocked (st : Settings K) (sky : Sky K) (metas : List (SnapMeta K))
    (data : ℕ → SnapData K) (bins : List K) (c : Cone K)
    (h : buildCone st sky metas data bins = .ok c) (hnd : (metas.map (·.index)).Nodup) :
    Blocked c.rows (snapsUsed st metas) := by
  obtain ⟨parts, hs, -, hrows, -⟩ := buildCone_ok h
  have hnd' : ((snapsUsed st metas).map (·.index)).Nodup := by
    unfold snapsUsed
    rw [((Sim.sortByZ_perm _).map _).nodup_iff]
    exact hnd.sublist ((List.filter_sublist).map _)
  refine ⟨?_, hnd'⟩
  have hnd2 : (parts.map (fun P => P.s.index)).Nodup := by
    rw [← hs, List.map_map] at hnd'
    exact hnd'
  rw [← hs, hrows, List.flatMap_map]
  apply List.flatMap_congr
  intro P hP
  exact (blockOf_parts st sky parts hnd2 P hP).symm

end Verif.LC
