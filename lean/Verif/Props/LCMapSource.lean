import Verif.Props.LCMapEx
import Verif.Props.LCOpenSource

set_option linter.unusedSectionVars false

/-!
# C120: from the raw halos to maps of lightcones
-/

namespace Verif.LC

open Verif.Sim (Err SnapMeta)
open Verif.Format (Col File Disk Run History firstGroup)
open Verif.Format.Spec (groupOf)
open Verif.Handler (State Op run Name)
open Verif.Handler.Spec (Reachable selection)
open Verif.HGrid (lcGrid)
open Verif.Map.Spec (total)
open Verif.LC.Spec
open Matrix

variable {K : Type} [Field K] [LinearOrder K] [IsStrictOrderedRing K] [FloorRing K]

/-- **C120 from raw halos to maps.** After any sequence of completed calls of `format`, lightcones are
built from the file, a property is added, a lightcone is opened, and objects are selected in any way:
the default map of the property has all selected objects, and the sum of its cells is the sum of the
values of the raw halos of the selected objects. -/
theorem C120_raw_partial (d0 : Disk K) (h0 : d0.file = none) (hs : List (Run K × Disk K)) (d : Disk K)
    (hist : History d0 hs d) (file : File K) (hf : d.file = some file) :
    ∃ orig : ℕ → Origin K, (∀ i, groupOf d i ≠ none → (orig i).Of hs i) ∧
    ∀ (st : Settings K) (skies : List (Sky K)) (bins : List K) (store : K → K) (keys : List String)
      (plan plan2 : List (Step K)) (f0 f1 f2 : Folder K) (D : K → K),
      buildFrom file st skies bins = some plan → exec plan f0 = (f1, .ok ()) →
      addFrom file st store skies.length keys f1 = some plan2 → exec plan2 f1 = (f2, .ok ()) →
      (∀ k ∈ ["pos_x", "pos_y", "pos_z", "mass"], k ∈ keysOf file) →
      (∀ key, key ++ "_x" ∈ keysOf file → key ++ "_y" ∈ keysOf file ∧ key ++ "_z" ∈ keysOf file) →
      (∀ metas, makerMetas file = .ok metas → Consistent st metas D) → Inverse st D → 0 < D st.zlo →
      0 < st.angle → 0 < st.aspect → -1 < st.zlo → st.zlo < st.zhi →
      (∀ x y, |x| ≤ st.root (x ^ 2 + y ^ 2)) →
      ∀ (i : ℕ) (sky : Sky K), skies[i]? = some sky → sky.losM *ᵥ sky.los = ![1, 0, 0] →
        sky.paM *ᵥ ![1, 0, 0] = ![1, 0, 0] →
      ∀ (h : K) (inH : Bool) (more : PyDict Name K),
        ∃ (rows : List (Row K)) (hd : State K), openCone (simAttr file) (f2 i) h inH more = .ok hd ∧
          hd.nAll = rows.length ∧
          ∀ key ∈ keys, key ∉ posKeys → key ∈ keysOf file → key ≠ "masscheck" → key ≠ "mass_cuts" →
            key ∉ ["pos_x", "pos_y", "pos_z", "ra", "dec", "redshift", "mass"] →
            ∃ (l : List K) (ε : ℤ), (attr (simAttr file) key).map (·.2) = some ε ∧
              l.length = rows.length ∧
              (∀ (k : ℕ) (r : Row K) (x : K), rows[k]? = some r → l[k]? = some x →
                ∃ j v, (orig r.snap).order[r.index]? = some j ∧ (orig r.snap).Raw j key v ∧
                  x = store v) ∧
              ∀ (freq : Option K), (∀ f, freq = some f → 0 < f) → Inner st rows freq →
              ∀ (ops : List (Op K)), Untouched [key] ops → ∀ (useAll : Bool) (b : Option Bool),
                selection (run hd ops) useAll ≠ [] →
                ∃ g t, lcGrid (run hd ops) (coneMeta st h inH) [key] freq b useAll = some (.ok g) ∧
                  g.grid = some t ∧ g.nObj = (selection (run hd ops) useAll).length ∧
                  total g t 0 = ((selection (run hd ops) useAll).map
                    (valueAt (shownAs h ε (b.getD (run hd ops).inH) l))).sum := by
  obtain ⟨orig, ho, H⟩ := C119_raw d0 h0 hs d hist file hf
  refine ⟨orig, ho, ?_⟩
  intro st skies bins store keys plan plan2 f0 f1 f2 D hplan hx hadd hx2 hbasic hvec hcons hinv hD ha hr0
    hz0 hz hroot i sky hi hlos hpa h inH more
  obtain ⟨rows, hd, e1, -, e3, ⟨metas, c, hm, hc, hrows⟩, -, e5, e6⟩ := H st skies bins store keys plan plan2
    f0 f1 f2 hplan hx hadd hx2 hbasic hvec i sky hi hlos hpa h inH more
  refine ⟨rows, hd, e1, e3, ?_⟩
  intro key k1 k2 k3 k4 k5 k6
  obtain ⟨l, u, ε, a1, a2, a3, a4⟩ := e6 key k1 k2 k3 k4 k5 k6
  refine ⟨l, ε, by rw [a1]; rfl, a3, a4, ?_⟩
  intro freq hfr hin ops hops useAll b hsel
  have zero : ∀ q ∈ (columns : List (String × (Row K → K))), (attr (simAttr file) q.1).map (·.2) = some 0 →
      Shown hd q.1 0 h (rows.map q.2) := by
    intro q hq h0
    obtain ⟨u, ε', b1, b2⟩ := e5 q hq
    rw [b1] at h0
    simp only [Option.map_some, Option.some.injEq] at h0
    subst h0
    exact b2
  have hsh : Shows hd h c.rows [key] (fun _ => (ε, l)) := by
    rw [hrows]
    refine ⟨zero ("ra", Row.ra) (by simp [columns]) (by simp [attr]),
      zero ("dec", Row.dec) (by simp [columns]) (by simp [attr]),
      zero ("redshift", Row.redshift) (by simp [columns]) (by simp [attr]), ?_⟩
    intro p hp
    simp only [List.mem_cons, List.not_mem_nil, or_false] at hp
    subst hp
    exact a2
  obtain ⟨g, t, h1, h2, h3, h4⟩ := C120_complete_partial st sky metas (sourceOf file) bins c D hc (hcons metas hm)
    hinv hD ha hr0 hz0 hz hroot freq hfr (by rw [hrows]; exact hin) hd h [key] _ hsh ops hops (by simp) useAll
    b hsel inH
  exact ⟨g, t, h1, h2, h3, h4 0 key rfl⟩

end Verif.LC
