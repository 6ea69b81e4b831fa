import Verif.Lemmas.Loaders

set_option linter.unusedSectionVars false

/-!
# C47: reading the files of a group catalogue; C84, C85: other raw catalogues
-/

namespace Verif.Load
open Verif.Sim (Err)
open Verif.Load.Spec

variable {K : Type} [Zero K]

/-- The values of a field in all files, in the order of the files. -/
def Spec.inOrder (chunks : List (Chunk K)) (name : Name) : List (List K) :=
  chunks.flatMap (objects · name)

/-- The result of loading holds, for the field `name`, the values of all files in order. -/
def Spec.Holds (r : Loaded K) (total : ℕ) (fields : List Name) (name : Name)
    (vals : List (List K)) : Prop :=
  match fields with
  | [_] => ∃ a, r = .array a ∧ rows a = vals
  | _ => ∃ d a, r = .dict total d ∧ d.get? name = some a ∧ rows a = vals

/-- What is read from a catalogue whose header announces at least as many objects as the files have: the
values in order of the files, followed by zeros if the header announces more. -/
theorem C47_in_order (c : Cat K) (chunks : List (Chunk K)) (fields : List Name) (hne : fields ≠ [])
    (hnd : fields.Nodup) (hs : Sound c chunks fields) (h0 : 0 < c.total)
    (hc : count chunks ≤ c.total) :
    ∃ r, loadObjects c fields = .ok r ∧ ∀ name ∈ fields, ∃ z : List K, (∀ x ∈ z, x = 0) ∧
      Holds r c.total fields name
        (inOrder chunks name ++ List.replicate (c.total - count chunks) z) := by
  obtain ⟨f0, rest, hch, hfirst⟩ := hs.first
  classical
  let base : Name → Arr K := fun name => (f0.fields.get? name).getD (.one [])
  have hbase : ∀ name ∈ fields, f0.fields.get? name = some (base name) := by
    intro name hname
    obtain ⟨a0, h, -⟩ := hfirst name hname
    simp [base, h]
  have hkind : ∀ f ∈ chunks, ∀ name ∈ fields, ∀ a, f.fields.get? name = some a →
      SameKind (base name) a := by
    intro f hf name hname a ha
    obtain ⟨a0, h, h'⟩ := hfirst name hname
    have : base name = a0 := by simp [base, h]
    rw [this]; exact h' f hf a ha
  obtain ⟨result, h1, h2⟩ := loadChunks_ok c chunks fields hs.files hnd hne base hkind hs.sizes
    hs.complete chunks [] (fields.map (fun name => (name, zeros c.total (base name)))) c.total rfl hc
    (by
      intro name hname
      exact ⟨_, get?_map_self fields (fun n => zeros c.total (base n)) name hname, filled_zeros _ _⟩)
  have hidx : c.chunk 0 = .ok f0 := by simp [Cat.chunk, hs.files, hch]
  have hr : (List.range chunks.length).map (([] : List (Chunk K)).length + ·)
      = List.range c.numFiles := by
    rw [hs.number]; simp
  rw [hr] at h1
  have hc0 : count ([] : List (Chunk K)) = 0 := rfl
  rw [hc0] at h1
  have hz : ∀ a : Arr K, ∀ x ∈ zeroRow a, x = 0 := by
    intro a x hx
    cases a with
    | one v => simpa [zeroRow] using hx
    | many w r => exact (List.mem_replicate.1 hx).2
  unfold loadObjects
  simp only [hidx, Nat.pos_iff_ne_zero.1 h0, if_false, hne, allocate_ok c.total f0 fields base hbase, h1]
  match fields, hne, h2 with
  | [name], _, h2 =>
    obtain ⟨a, ha, hfill⟩ := h2 name (by simp)
    refine ⟨.array a, by simp [ha], ?_⟩
    intro x hx
    simp only [List.mem_singleton] at hx
    subst hx
    exact ⟨_, hz _, a, rfl, hfill.rows_eq.1⟩
  | n1 :: n2 :: ns, _, h2 =>
    refine ⟨.dict c.total result, rfl, ?_⟩
    intro x hx
    obtain ⟨a, ha, hfill⟩ := h2 x hx
    exact ⟨_, hz _, result, a, rfl, ha, hfill.rows_eq.1⟩

/-- C47 for catalogues whose first file has all the fields: every field has the declared number of objects,
the values are those of the files in order. -/
theorem C47_loaded_partial (c : Cat K) (chunks : List (Chunk K)) (fields : List Name)
    (hne : fields ≠ []) (hnd : fields.Nodup) (hs : Sound c chunks fields) (h0 : 0 < c.total)
    (hc : count chunks = c.total) :
    ∃ r, loadObjects c fields = .ok r ∧ ∀ name ∈ fields,
      Holds r c.total fields name (inOrder chunks name) ∧
      (inOrder chunks name).length = c.total := by
  obtain ⟨r, h1, h2⟩ := C47_in_order c chunks fields hne hnd hs h0 hc.le
  refine ⟨r, h1, fun name hname => ⟨?_, ?_⟩⟩
  · obtain ⟨z, -, hz⟩ := h2 name hname
    simpa [hc] using hz
  · rw [inOrder, List.length_flatMap, ← hc, count]
    congr 1
    exact List.map_congr_left fun f hf => hs.sizes f hf name hname

/-- The loader used for formatting then gives the arrays and the number of objects. -/
theorem C47_loader_partial (c : Cat K) (chunks : List (Chunk K)) (fields : List Name)
    (hlen : 1 < fields.length) (hnd : fields.Nodup) (hs : Sound c chunks fields) (h0 : 0 < c.total)
    (hc : count chunks = c.total) :
    ∃ d, illustrisLoader c fields = .ok (d, c.total) ∧ ∀ name ∈ fields,
      ∃ a, d.get? name = some a ∧ rows a = inOrder chunks name := by
  obtain ⟨r, h1, h2⟩ := C47_loaded_partial c chunks fields (by rintro rfl; simp at hlen) hnd hs h0 hc
  match fields, hlen, h1, h2 with
  | n1 :: n2 :: ns, _, h1, h2 =>
    obtain ⟨⟨d, a, rfl, -⟩, -⟩ := h2 n1 (by simp)
    refine ⟨d, by simp [illustrisLoader, h1], ?_⟩
    intro name hname
    obtain ⟨⟨d', a', he, ha, hr⟩, -⟩ := h2 name hname
    simp only [Loaded.dict.injEq, true_and] at he
    subst he
    exact ⟨a', ha, hr⟩

/-- A catalogue without objects: no fields. -/
theorem C47_none (c : Cat K) (f0 : Chunk K) (h : c.chunk 0 = .ok f0) (h0 : c.total = 0)
    (fields : List Name) : loadObjects c fields = .ok (.dict 0 []) := by
  simp [loadObjects, h, h0]

/-- If the first file is empty and so has no fields, loading fails, however many objects the
others have. -/
theorem C47_first_empty (c : Cat K) (f0 : Chunk K) (h : c.chunk 0 = .ok f0) (h0 : 0 < c.total)
    (hf : f0.fields = []) (fields : List Name) (hne : fields ≠ []) :
    loadObjects c fields = .error .keyError := by
  cases fields with
  | nil => exact absurd rfl hne
  | cons x xs =>
    simp [loadObjects, h, Nat.pos_iff_ne_zero.1 h0, allocate, mapE, hf]

/-- The loader used for formatting fails whenever a single field is asked for. -/
theorem C47_single_field (c : Cat K) (name : Name) (h0 : 0 < c.total) (r : PyDict Name (Arr K) × ℕ) :
    illustrisLoader c [name] ≠ .ok r := by
  unfold illustrisLoader loadObjects
  intro h
  rcases h1 : c.chunk 0 with e | f0
  · rw [h1] at h; simp at h
  · rw [h1] at h
    simp only [Nat.pos_iff_ne_zero.1 h0, if_false, List.cons_ne_nil] at h
    rcases h2 : allocate c.total f0 [name] with e | s
    · rw [h2] at h; simp at h
    · rw [h2] at h
      simp only at h
      rcases h3 : loadChunks c [name] s 0 (List.range c.numFiles) with e | s'
      · rw [h3] at h; simp at h
      · rw [h3] at h
        simp only at h
        rcases h4 : s'.get? name with _ | a
        · rw [h4] at h; simp at h
        · rw [h4] at h; simp at h

/-- C47 in full: an empty file need not have any fields. -/
def C47_full : Prop :=
  ∀ (c : Cat ℤ) (chunks : List (Chunk ℤ)) (fields : List Name), fields ≠ [] → fields.Nodup →
    c.files = chunks.map some → c.numFiles = chunks.length → count chunks = c.total → 0 < c.total →
    (∀ f ∈ chunks, 0 < f.n → ∀ name ∈ fields, ∃ v, f.fields.get? name = some (.one v) ∧ v.length = f.n) →
    (∀ f ∈ chunks, f.n = 0 → f.fields = []) →
    ∃ r, loadObjects c fields = .ok r ∧
      ∀ name ∈ fields, Holds r c.total fields name (inOrder chunks name)

theorem C47_full_false : ¬ C47_full := by
  intro H
  obtain ⟨r, hr, -⟩ := H ⟨1, 2, [0, 0], [some ⟨0, []⟩, some ⟨1, [("SubhaloMass", .one [5])]⟩]⟩
    [⟨0, []⟩, ⟨1, [("SubhaloMass", .one [5])]⟩] ["SubhaloMass"] (by decide) (by decide) rfl rfl rfl
    (by decide)
    (by
      intro f hf hn name hname
      simp only [List.mem_cons, List.not_mem_nil, or_false] at hf hname
      rcases hf with rfl | rfl
      · simp at hn
      · subst hname; exact ⟨[5], rfl, rfl⟩)
    (by
      intro f hf hn
      simp only [List.mem_cons, List.not_mem_nil, or_false] at hf
      rcases hf with rfl | rfl
      · rfl
      · simp at hn)
  rw [C47_first_empty _ ⟨0, []⟩ rfl (by decide) rfl _ (by decide)] at hr
  cases hr

/-! ### Single objects -/

/-- The offset of each file: the number of objects in the files before it. -/
def Spec.offsetsOf : ℤ → List (Chunk K) → List ℤ
  | _, [] => []
  | o, f :: fs => o :: offsetsOf (o + f.n) fs

theorem offsetsOf_length (o : ℤ) (chunks : List (Chunk K)) :
    (offsetsOf o chunks).length = chunks.length := by
  induction chunks generalizing o with
  | nil => rfl
  | cons f fs ih => simp [offsetsOf, ih]

theorem offsetsOf_get (o : ℤ) (pre : List (Chunk K)) (f : Chunk K) (post : List (Chunk K)) :
    (offsetsOf o (pre ++ f :: post))[pre.length]? = some (o + count pre) := by
  induction pre generalizing o with
  | nil => simp [offsetsOf, count]
  | cons g pre ih =>
    simp only [List.cons_append, offsetsOf, List.length_cons, List.getElem?_cons_succ, ih]
    simp [count, add_assoc]

/-- The file that holds object `id`. -/
theorem exists_split (chunks : List (Chunk K)) (id : ℕ) (h : id < count chunks) :
    ∃ pre f post, chunks = pre ++ f :: post ∧ count pre ≤ id ∧ id < count pre + f.n := by
  induction chunks generalizing id with
  | nil => simp [count] at h
  | cons g rest ih =>
    by_cases hg : id < g.n
    · exact ⟨[], g, rest, rfl, by simp [count], by simpa [count] using hg⟩
    · have hc : count (g :: rest) = g.n + count rest := by simp [count]
      obtain ⟨pre, f, post, h1, h2, h3⟩ := ih (id - g.n) (by omega)
      have hc2 : count (g :: pre) = g.n + count pre := by simp [count]
      exact ⟨g :: pre, f, post, by simp [h1], by omega, by omega⟩

theorem fileOf_ok (pre : List (Chunk K)) (f : Chunk K) (post : List (Chunk K)) (id : ℕ)
    (h1 : count pre ≤ id) (h2 : id < count pre + f.n) :
    fileOf (id : ℤ) (offsetsOf 0 (pre ++ f :: post)) = .ok pre.length := by
  unfold fileOf
  set l := (List.range (offsetsOf 0 (pre ++ f :: post)).length).filter
    (startsBefore id (offsetsOf 0 (pre ++ f :: post))) with hl
  have hmem : pre.length ∈ l := by
    rw [hl, List.mem_filter]
    refine ⟨by rw [List.mem_range, offsetsOf_length]; simp, ?_⟩
    rw [startsBefore, offsetsOf_get]
    simp; omega
  have hmax : ∀ i ∈ l, i ≤ pre.length := by
    intro i hi
    by_contra hgt
    rw [hl, List.mem_filter, List.mem_range, offsetsOf_length] at hi
    obtain ⟨hi1, hi2⟩ := hi
    -- file `i` comes after `f`
    obtain ⟨k, hk⟩ : ∃ k, i = pre.length + 1 + k := ⟨i - (pre.length + 1), by omega⟩
    have hk' : k < post.length := by simp at hi1; omega
    have hsplit : pre ++ f :: post
        = (pre ++ f :: post.take k) ++ post[k] :: post.drop (k + 1) := by
      have : post = post.take k ++ post[k] :: post.drop (k + 1) := by
        rw [List.getElem_cons_drop, List.take_append_drop]
      conv_lhs => rw [this]
      simp
    have hi' : i = (pre ++ f :: post.take k).length := by
      simp [List.length_take, Nat.min_eq_left hk'.le]; omega
    have hcnt : count (pre ++ f :: post.take k) = count pre + (f.n + count (post.take k)) := by
      simp [count]
    rw [startsBefore, hsplit, hi', offsetsOf_get] at hi2
    simp only [decide_eq_true_eq, hcnt] at hi2
    push_cast at hi2
    omega
  have : l.max? = some pre.length := by
    rw [List.max?_eq_some_iff]
    exact ⟨hmem, fun b hb => hmax b hb⟩
  rw [this]

theorem at_rows (a : Arr K) (i : ℕ) (r : List K) (h : (rows a)[i]? = some r) : a.at i = .ok r := by
  cases a with
  | one v =>
    simp only [rows, List.getElem?_map] at h
    simp only [Arr.at]
    cases hv : v[i]? with
    | none => rw [hv] at h; simp at h
    | some x => rw [hv] at h; simp at h; simp [h]
  | many w rws =>
    simp only [rows] at h
    simp [Arr.at, h]

theorem flatMap_get {α : Type} (pre post : List (Chunk K)) (f : Chunk K) (g : Chunk K → List α)
    (id : ℕ) (h1 : (pre.flatMap g).length ≤ id) (h2 : id < (pre.flatMap g).length + (g f).length) :
    ((pre ++ f :: post).flatMap g)[id]? = (g f)[id - (pre.flatMap g).length]? := by
  rw [List.flatMap_append, List.getElem?_append_right h1, List.flatMap_cons,
    List.getElem?_append_left (by omega)]

theorem get?_of_mem {β : Type} (d : PyDict Name β) (hnd : d.keys.Nodup) (p : Name × β) (hp : p ∈ d) :
    d.get? p.1 = some p.2 := by
  induction d with
  | nil => simp at hp
  | cons q d ih =>
    simp only [PyDict.keys, List.map_cons, List.nodup_cons] at hnd
    rw [PyDict.get?_cons]
    rcases List.mem_cons.1 hp with rfl | hp
    · simp
    · have : ¬ q.1 = p.1 := by
        intro h; exact hnd.1 (h ▸ List.mem_map.2 ⟨p, hp, rfl⟩)
      rw [if_neg this]
      exact ih hnd.2 hp

/-- Reading one object gives the values it has in the arrays read as a whole. -/
theorem C47_object (c : Cat K) (chunks : List (Chunk K)) (fields : List Name)
    (hs : Sound c chunks fields) (hoff : c.offsets = offsetsOf 0 chunks) (id : ℕ)
    (hid : id < count chunks)
    (hall : ∀ f ∈ chunks, f.fields.keys.Nodup ∧ ∀ p ∈ f.fields.keys, p ∈ fields) :
    ∃ d, loadSingle c id = .ok d ∧ ∀ name ∈ fields, d.get? name = (inOrder chunks name)[id]? := by
  obtain ⟨pre, f, post, hch, h1, h2⟩ := exists_split chunks id hid
  have hfm : f ∈ chunks := by rw [hch]; simp
  have hfile : c.chunk pre.length = .ok f := by simp [Cat.chunk, hs.files, hch]
  have hsize : ∀ name ∈ fields, (pre.flatMap (objects · name)).length = count pre := by
    intro name hname
    rw [List.length_flatMap, count]
    congr 1
    exact List.map_congr_left fun g hg => hs.sizes g (by rw [hch]; simp [hg]) name hname
  have hval : ∀ name ∈ fields, ∃ r, (objects f name)[id - count pre]? = some r ∧
      (inOrder chunks name)[id]? = some r := by
    intro name hname
    have hl := hs.sizes f hfm name hname
    have hlt : id - count pre < (objects f name).length := by omega
    refine ⟨(objects f name)[id - count pre], List.getElem?_eq_getElem hlt, ?_⟩
    rw [inOrder, hch, flatMap_get pre post f _ id (by rw [hsize name hname]; exact h1)
      (by rw [hsize name hname]; omega), hsize name hname, List.getElem?_eq_getElem hlt]
  have hread : ∀ p ∈ f.fields, ∃ r, p.2.at (id - count pre) = .ok r ∧
      (inOrder chunks p.1)[id]? = some r := by
    intro p hp
    have hk : p.1 ∈ f.fields.keys := List.mem_map.2 ⟨p, hp, rfl⟩
    have hname := (hall f hfm).2 p.1 hk
    obtain ⟨r, hr, hr'⟩ := hval p.1 hname
    have hget : f.fields.get? p.1 = some p.2 := get?_of_mem f.fields (hall f hfm).1 p hp
    simp only [objects, hget] at hr
    exact ⟨r, at_rows _ _ _ hr, hr'⟩
  have hnn : ¬ (id : ℤ) < 0 := by omega
  have ho : ((id : ℤ) - ((offsetsOf 0 (pre ++ f :: post))[pre.length]?).getD 0).toNat
      = id - count pre := by
    rw [offsetsOf_get]
    simp only [Option.getD_some]
    omega
  unfold loadSingle
  simp only [hnn, if_false, hoff, hch, fileOf_ok pre f post id h1 h2, hfile, ho]
  have hlist : ∀ l : PyDict Name (Arr K), (∀ p ∈ l, p ∈ f.fields) →
      ∃ d, mapE (atOf (id - count pre)) l = .ok d ∧
        ∀ name, PyDict.get? d name
          = (if name ∈ l.keys then (inOrder chunks name)[id]? else none) := by
    intro l
    induction l with
    | nil => intro _; exact ⟨[], rfl, by simp [PyDict.keys]⟩
    | cons p l ih =>
      intro hl
      obtain ⟨d, hd, hd'⟩ := ih (fun q hq => hl q (by simp [hq]))
      obtain ⟨r, hr, hr'⟩ := hread p (hl p (by simp))
      refine ⟨(p.1, r) :: d, by simp only [mapE, atOf, hr, hd], ?_⟩
      intro name
      rw [PyDict.get?_cons]
      by_cases hpn : p.1 = name
      · subst hpn
        simp [PyDict.keys, hr']
      · rw [if_neg hpn, hd' name]
        have : name ∈ PyDict.keys (p :: l) ↔ name ∈ PyDict.keys l := by
          simp only [PyDict.keys, List.map_cons, List.mem_cons]
          constructor
          · rintro (h | h)
            · exact absurd h.symm hpn
            · exact h
          · exact Or.inr
        simp only [this]
  obtain ⟨d, hd, hd'⟩ := hlist f.fields (fun _ h => h)
  refine ⟨d, hd, ?_⟩
  intro name hname
  rw [hd' name]
  have hk : name ∈ f.fields.keys := by
    rw [PyDict.mem_keys_iff]
    exact hs.complete f hfm (by omega) name hname
  rw [if_pos hk, hch]

/-! ### A concrete catalogue -/

/-- Three files, the second empty. -/
def demoChunks : List (Chunk ℤ) :=
  [⟨2, [("SubhaloMass", .one [7, 5]), ("SubhaloPos", .many 2 [[1, 2], [3, 4]])]⟩,
   ⟨0, []⟩,
   ⟨1, [("SubhaloMass", .one [6]), ("SubhaloPos", .many 2 [[5, 6]])]⟩]

def demoCatalogue : Cat ℤ := ⟨3, 3, [0, 2, 2], demoChunks.map some⟩

theorem demo_sound : Sound demoCatalogue demoChunks ["SubhaloMass", "SubhaloPos"] where
  files := rfl
  number := rfl
  first := by
    refine ⟨_, _, rfl, ?_⟩
    intro name hname
    simp only [List.mem_cons, List.not_mem_nil, or_false] at hname
    rcases hname with rfl | rfl
    · refine ⟨_, rfl, ?_⟩
      intro f hf a ha
      simp only [demoChunks, List.mem_cons, List.not_mem_nil, or_false] at hf
      rcases hf with rfl | rfl | rfl <;> simp [PyDict.get?_cons] at ha <;> subst ha <;> trivial
    · refine ⟨_, rfl, ?_⟩
      intro f hf a ha
      simp only [demoChunks, List.mem_cons, List.not_mem_nil, or_false] at hf
      rcases hf with rfl | rfl | rfl <;> simp [PyDict.get?_cons] at ha <;> subst ha <;> rfl
  sizes := by decide
  complete := by decide

example : loadObjects demoCatalogue ["SubhaloMass", "SubhaloPos"]
    = .ok (.dict 3 [("SubhaloMass", .one [7, 5, 6]),
        ("SubhaloPos", .many 2 [[1, 2], [3, 4], [5, 6]])]) := by decide +kernel

example : loadSingle demoCatalogue 2 = .ok [("SubhaloMass", [6]), ("SubhaloPos", [5, 6])] ∧
    demoCatalogue.offsets = offsetsOf 0 demoChunks ∧ count demoChunks = demoCatalogue.total ∧
    ∀ f ∈ demoChunks, f.fields.keys.Nodup ∧
      ∀ p ∈ f.fields.keys, p ∈ ["SubhaloMass", "SubhaloPos"] := by decide +kernel

/-- A header that announces one object too many goes unnoticed: the last object has mass zero. -/
example : loadObjects { demoCatalogue with total := 4 } ["SubhaloMass"]
    = .ok (.array (.one [7, 5, 6, 0])) := by decide +kernel

end Verif.Load
