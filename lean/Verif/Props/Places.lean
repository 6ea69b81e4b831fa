import Verif.Props.PathsCrash
import Verif.Spec.Places

/-!
# C134: catalogues, simulations and lightcones find each other by name
-/

namespace Verif.Paths
open Spec

/-- The disk holds what the notebook says. -/
structure Kept (d : Disk) (a : Registry) : Prop where
  rootFile : loadRootFile d.rootFile = .ok a.root
  files : ∀ r k, FileHolds (d.files r k) (a.lookup r k)

theorem Kept.start {d : Disk} {a : Registry} (h : Kept d a) :
    ∃ s, start d = (s, .loaded) ∧ s.disk = d ∧ Inv s a := by
  have e : Paths.start d = loadPaths { disk := d, root := a.root, mem := fun _ => [] } := by
    unfold Paths.start newSession
    simp only [h.rootFile]
  obtain ⟨e1, e2, e3, e4⟩ := loadPaths_spec { disk := d, root := a.root, mem := fun _ => [] } a rfl h.files
  refine ⟨(loadPaths { disk := d, root := a.root, mem := fun _ => [] }).1, ?_, e2, e3, ?_, ?_, e4⟩
  · rw [e, ← e1]
  · rw [e2]; exact h.rootFile
  · rw [e2]; exact h.files

theorem kept_of_inv {s : State} {a : Registry} (h : Inv s a) : Kept s.disk a := ⟨h.rootFile, h.files⟩

theorem mem_says {s : State} {a : Registry} (h : Inv s a) (k : Kind) (n : Text) : (s.mem k).get? n = a.says k n := by
  rw [h.mem k n]
  unfold Registry.says
  cases a.root <;> rfl

theorem lookUp_kept {d : Disk} {a : Registry} (h : Kept d a) (k : Kind) (sim : Text) :
    lookUp d k sim = match a.says k sim with
      | some p => .ok ⟨p, true⟩
      | none => .error (.raised .valueError) := by
  obtain ⟨s, h1, -, h2⟩ := h.start
  unfold lookUp
  rw [h1]
  dsimp only
  rw [mem_says h2]
  cases a.says k sim <;> rfl

/-- Every accepted name survives the registry files. -/
theorem accepted_clean : ∀ sim ∈ acceptedSims, Clean sim := by
  unfold Clean
  decide

/-- Writing down again what is there already. -/
theorem note_same (a : Registry) (k : Kind) (sim p : Text) (h : a.says k sim = some p) :
    ({ a with lookup := fun r k' n => if a.root = some r ∧ k' = k ∧ n = sim then some p else a.lookup r k' n } : Registry)
      = a := by
  obtain ⟨root, lookup⟩ := a
  congr 1
  funext r k' n
  dsimp only
  split
  · rename_i hh
    obtain ⟨h1, rfl, rfl⟩ := hh
    unfold Registry.says at h
    simp only at h h1
    rw [h1] at h
    exact h.symm
  · rfl

theorem lookOrMake_kept (env : Env) {d : Disk} {a : Registry} (h : Kept d a) (k : Kind) (sim : Text) (hs : Clean sim)
    (ans : List Text) (hc : ∀ p b, (lookOrMake env d k sim ans).2 = .ok ⟨p, b⟩ → Clean p) :
    Kept (lookOrMake env d k sim ans).1 (match (lookOrMake env d k sim ans).2 with
      | .ok ⟨p, _⟩ =>
        { a with lookup := fun r k' n => if a.root = some r ∧ k' = k ∧ n = sim then some p else a.lookup r k' n }
      | .error _ => a) ∧ ∀ p b, (lookOrMake env d k sim ans).2 = .ok ⟨p, b⟩ → b = true := by
  obtain ⟨s, h1, hd, h2⟩ := h.start
  unfold lookOrMake at hc ⊢
  rw [h1] at hc ⊢
  dsimp only at hc ⊢
  have hm := mem_says h2 k sim
  rcases hg : (s.mem k).get? sim with _ | p
  · rw [hg] at hc hm
    dsimp only at hc ⊢
    rcases newPath_cases env s k sim (some auto) true ans with ⟨r, p, hr, e⟩ | ⟨o, o1, o2, e⟩
    · rw [e] at hc ⊢
      dsimp only at hc ⊢
      have := store_inv s a r k sim p h2 hr hs (hc p true rfl) (.newPath k sim none true []) ⟨_, _, _, rfl⟩
      refine ⟨kept_of_inv this, ?_⟩
      intro p' b hb
      simp only [Except.ok.injEq, Place.mk.injEq] at hb
      exact hb.2.symm
    · rw [e] at hc ⊢
      dsimp only at hc ⊢
      rw [hd]
      cases o with
      | registered p => exact absurd rfl (o1 p)
      | rootSet p => exact ⟨h, fun _ _ hb => by simp at hb⟩
      | loaded => exact ⟨h, fun _ _ hb => by simp at hb⟩
      | kept => exact ⟨h, fun _ _ hb => by simp at hb⟩
      | waiting => exact ⟨h, fun _ _ hb => by simp at hb⟩
      | raised e => exact ⟨h, fun _ _ hb => by simp at hb⟩
  · rw [hg] at hm
    dsimp only
    refine ⟨?_, ?_⟩
    · rw [note_same a k sim p hm.symm]
      exact h
    · intro p' b hb
      simp only [Except.ok.injEq, Place.mk.injEq] at hb
      exact hb.2.symm

theorem newPath_given (env : Env) (s : State) (k : Kind) (sim path : Text) (ans : List Text) (h1 : path ≠ [])
    (h2 : path ≠ auto) (p : Text) (h : (newPath env s k sim (some path) true ans).2 = .registered p) :
    p = env.abspath path := by
  have h2' : ¬ path = ['a', 'u', 't', 'o'] := h2
  have ht : ∀ r l, (newPathTail env s r k sim (some path) l).2 = .registered p → p = env.abspath path := by
    intro r l h
    unfold newPathTail at h
    simp only [reduceCtorEq, Option.some.injEq, h1, h2', or_false, if_false, Option.getD_some, Outcome.registered.injEq] at h
    exact h.symm
  unfold newPath at h
  split at h
  · simp at h
  · split at h
    · split at h
      · simp at h
      · simp at h
      · exact ht _ _ h
    · exact ht _ _ h

theorem perform_kept (env : Env) (hE : env.exist [] = false) {d : Disk} {a : Registry} (h : Kept d a) (p : Program)
    (hc : CleanPlace (p, (perform env d p).2)) : Kept (perform env d p).1 (note a (p, (perform env d p).2)) := by
  cases p with
  | catalogue sim path up ans =>
    simp only [perform, checkSim] at hc ⊢
    by_cases hs : sim ∈ acceptedSims
    · rw [if_pos hs] at hc ⊢
      dsimp only at hc ⊢
      by_cases hp : path = auto
      · rw [if_pos hp] at hc ⊢
        have := lookOrMake_kept env h .sim sim (accepted_clean sim hs) ans (by
          intro p b hb
          rw [hb] at hc
          exact hc)
        rcases hl : lookOrMake env d .sim sim ans with ⟨d', o | ⟨p, b⟩⟩
        · rw [hl] at this; exact this.1
        · rw [hl] at this
          obtain ⟨t1, t2⟩ := this
          have := t2 p b rfl
          subst this
          exact t1
      · rw [if_neg hp] at hc ⊢
        obtain ⟨s, h1, hd, h2⟩ := h.start
        rw [h1] at hc ⊢
        dsimp only at hc ⊢
        by_cases hx : env.exist path = true
        · have hne : path ≠ [] := by
            rintro rfl
            rw [hE] at hx
            cases hx
          rw [if_pos hx] at hc ⊢
          cases up with
          | false => exact h
          | true =>
            simp only [if_true] at hc ⊢
            rcases newPath_cases env s .sim sim (some path) true ans with ⟨r, p, hr, e⟩ | ⟨o, o1, o2, e⟩
            · have hpp := newPath_given env s .sim sim path ans hne hp p (by rw [e])
              rw [e] at hc ⊢
              dsimp only at hc ⊢
              subst hpp
              exact kept_of_inv (store_inv s a r .sim sim _ h2 hr (accepted_clean sim hs) hc
                (.newPath .sim sim none true []) ⟨_, _, _, rfl⟩)
            · rw [e]
              dsimp only
              rw [hd]
              cases o with
              | registered p => exact absurd rfl (o1 p)
              | rootSet p => exact h
              | loaded => exact h
              | kept => exact h
              | waiting => exact h
              | raised e => exact h
        · rw [if_neg hx]
          exact h
    · rw [if_neg hs]
      exact h
  | simulation sim =>
    simp only [perform]
    cases checkSim sim <;> exact h
  | maker sim ans =>
    simp only [perform, checkSim] at hc ⊢
    by_cases hs : sim ∈ acceptedSims
    · rw [if_pos hs] at hc ⊢
      dsimp only at hc ⊢
      rcases hlk : lookUp d .sim sim with o | q
      · exact h
      · rw [hlk] at hc
        dsimp only at hc ⊢
        have := lookOrMake_kept env h .lc sim (accepted_clean sim hs) ans (by
          intro p b hb
          rw [hb] at hc
          exact hc)
        rcases hl : lookOrMake env d .lc sim ans with ⟨d', o | ⟨p, b⟩⟩
        · rw [hl] at this; exact this.1
        · rw [hl] at this
          obtain ⟨t1, t2⟩ := this
          have := t2 p b rfl
          subst this
          exact t1
    · rw [if_neg hs]
      exact h
  | cone sim => exact h
  | setup ans =>
    simp only [perform] at hc ⊢
    obtain ⟨s, h1, hd, h2⟩ := h.start
    rw [h1] at hc ⊢
    dsimp only at hc ⊢
    cases ans with
    | nil => exact h
    | cons root rest =>
      dsimp only at hc ⊢
      by_cases hx : root ≠ [] ∧ env.exist root = false
      · rw [if_pos hx]
        exact h
      · rw [if_neg hx] at hc ⊢
        dsimp only at hc ⊢
        rcases setupPath_cases env s (if root = [] then ['~'] else root) true rest with ⟨r, e⟩ | ⟨o, o1, o2, e⟩
        · rw [e] at hc ⊢
          have e1 := (loadPaths_spec { s with disk := { s.disk with rootFile := some r }, root := some r }
            { a with root := some r } rfl (by intro r k; exact h2.files r k)).1
          have e2 : (commitRoot s r).2 = .rootSet r := by
            unfold commitRoot
            dsimp only
            rw [if_pos e1]
          rw [e2] at hc ⊢
          have := (commitRoot_inv s a h2 r [] true [] (by rw [e2]; exact hc)).2
          rw [e2] at this
          exact kept_of_inv this
        · rw [e]
          dsimp only
          rw [hd]
          cases o with
          | registered p => exact absurd rfl (o1 p)
          | rootSet p => exact absurd rfl (o2 p)
          | loaded => exact h
          | kept => exact h
          | waiting => exact h
          | raised e => exact h

theorem performAll_kept (env : Env) (hE : env.exist [] = false) (d : Disk) (a : Registry) (h : Kept d a) (ps : List Program)
    (hc : ∀ x ∈ (performAll env d ps).2, CleanPlace x) :
    Kept (performAll env d ps).1 ((performAll env d ps).2.foldl note a) := by
  induction ps generalizing d a with
  | nil => exact h
  | cons p ps ih =>
    unfold performAll at hc ⊢
    dsimp only at hc ⊢
    exact ih _ _ (perform_kept env hE h p (hc _ (by simp))) (fun x hx => hc x (by simp [hx]))

theorem fresh_kept : Kept fresh.disk empty := kept_of_inv inv_fresh

/-! ## What is found -/

/-- C134: after any sequence of programs, each in a session of its own, a simulation is opened in the directory that the last catalogue of
this name said it uses (under the root directory chosen last), and there is a `ValueError` if there is none.  Missing: directories with
blanks or line breaks in their names, for which it is false (`C134_cut`). -/
theorem C134_simulation_partial (env : Env) (hE : env.exist [] = false) (ps : List Program)
    (hc : ∀ x ∈ (performAll env fresh.disk ps).2, CleanPlace x) (sim : Text) (hs : sim ∈ acceptedSims) :
    (perform env (performAll env fresh.disk ps).1 (.simulation sim)).2 =
      match (notebook (performAll env fresh.disk ps).2).says .sim sim with
      | some p => .ok ⟨p, true⟩
      | none => .error (.raised .valueError) := by
  have h := performAll_kept env hE _ _ fresh_kept ps hc
  simp only [perform, checkSim]
  rw [if_pos hs]
  exact lookUp_kept h .sim sim

/-- C134: lightcones are looked for in the directory that the last lightcone maker for this simulation said it uses. -/
theorem C134_cone_partial (env : Env) (hE : env.exist [] = false) (ps : List Program)
    (hc : ∀ x ∈ (performAll env fresh.disk ps).2, CleanPlace x) (sim : Text) :
    (perform env (performAll env fresh.disk ps).1 (.cone sim)).2 =
      match (notebook (performAll env fresh.disk ps).2).says .lc sim with
      | some p => .ok ⟨p, true⟩
      | none => .error (.raised .valueError) :=
  lookUp_kept (performAll_kept env hE _ _ fresh_kept ps hc) .lc sim

/-- C134: no other name is ever opened, even if it is in the registry. -/
theorem C134_refused (env : Env) (d : Disk) (sim : Text) (hs : sim ∉ acceptedSims) (path : Text) (up : Bool) (ans : List Text) :
    perform env d (.simulation sim) = (d, .error (.raised .nameError)) ∧
    perform env d (.catalogue sim path up ans) = (d, .error (.raised .nameError)) ∧
    perform env d (.maker sim ans) = (d, .error (.raised .nameError)) := by
  simp only [perform, checkSim]
  rw [if_neg hs]
  exact ⟨rfl, rfl, rfl⟩

/-! ## Directories with blanks -/

/-- The part of a text before its first blank. -/
def Spec.beforeBlank (t : Text) : Text := t.takeWhile fun c => c ≠ ' '

theorem splitSp_head (t : Text) : ∃ ws, splitSp t = beforeBlank t :: ws := by
  induction t with
  | nil => exact ⟨[], rfl⟩
  | cons c t ih =>
    obtain ⟨ws, h⟩ := ih
    unfold splitSp beforeBlank
    by_cases hc : c = ' '
    · rw [if_pos hc]
      exact ⟨splitSp t, by simp [hc]⟩
    · rw [if_neg hc, h]
      exact ⟨ws, by simp [hc, beforeBlank]⟩

theorem loadPathFile_append {f : Option Text} {m : Text → Option Text} (h : FileHolds f m) (name p : Text)
    (hn : Clean name) (h1 : '\n' ∉ p) (h2 : '\r' ∉ p) :
    ∃ d, loadPathFile (appendFile f (entry name p)) = .ok d ∧ d.get? name = some (beforeBlank p) := by
  obtain ⟨es, hes, hf, hm⟩ := h
  obtain ⟨n1, n2, n3⟩ := hn
  obtain ⟨ws, hw⟩ := splitSp_head p
  have hl : lines (universalNewlines (fileText es ++ entry name p)) =
      (es.map fun e => e.1 ++ ' ' :: e.2) ++ [name ++ ' ' :: p] := by
    have hr : '\r' ∉ fileText es ++ entry name p := by
      have : '\r' ∉ fileText es := by
        unfold fileText
        intro hx
        obtain ⟨l, hl, hx⟩ := List.mem_flatten.1 hx
        obtain ⟨e, he, rfl⟩ := List.mem_map.1 hl
        obtain ⟨⟨-, -, a3⟩, ⟨-, -, a6⟩⟩ := hes e he
        simp [entry, a3, a6] at hx
      simp [this, entry, n3, h2]
    have hu : universalNewlines (fileText es ++ entry name p) = fileText es ++ entry name p := by
      simpa [universalNewlines] using universalNewlines_append_clean (fileText es ++ entry name p) [] hr
    rw [hu]
    have e1 : fileText es ++ entry name p = fileText es ++ (name ++ ' ' :: p) ++ ['\n'] := by simp [entry]
    rw [e1]
    exact lines_glue es hes (name ++ ' ' :: p) (by simp [n2, h1])
  refine ⟨(dictOf [] es).set name (beforeBlank p), ?_, by simp⟩
  unfold loadPathFile appendFile
  simp only [hf, hl]
  rw [loadLines_append, loadLines_clean [] es hes]
  simp only [loadLines, loadLine, splitSp_more name p n1, hw]

theorem start_after (d : Disk) (a : Registry) (h : Kept d a) (r : Text) (hr : a.root = some r) (f : Option Text)
    (m : PyDict Text Text) (hm : loadPathFile f = .ok m) :
    ∃ s, start { d with files := setFile d.files r .sim f } = (s, .loaded) ∧ s.mem .sim = m := by
  obtain ⟨l, hl, -⟩ := (h.files r .lc).load
  obtain ⟨q, hq, -⟩ := (h.files r .prop).load
  unfold start newSession
  simp only [h.rootFile, hr, loadPaths]
  simp only [setFile, and_true, reduceCtorEq, and_false, if_true, if_false, hl, hm, hq]
  exact ⟨_, rfl, by simp [setMem]⟩

/-- C134, against: if the directory of a new catalogue has a blank anywhere in its name, the simulation is not opened there but in the
directory whose name is the part before the blank. -/
theorem C134_cut (env : Env) (hE : env.exist [] = false) (ps : List Program)
    (hc : ∀ x ∈ (performAll env fresh.disk ps).2, CleanPlace x) (sim path : Text) (ans : List Text) (p : Text)
    (hp : path ≠ auto)
    (hcat : (perform env (performAll env fresh.disk ps).1 (.catalogue sim path true ans)).2 = .ok ⟨p, true⟩)
    (hn : '\n' ∉ p) (hr : '\r' ∉ p) :
    let d := (perform env (performAll env fresh.disk ps).1 (.catalogue sim path true ans)).1
    (perform env d (.simulation sim)).2 = .ok ⟨beforeBlank p, true⟩ ∧ (' ' ∈ p → beforeBlank p ≠ p) := by
  refine ⟨?_, ?_⟩
  · have h := performAll_kept env hE _ _ fresh_kept ps hc
    obtain ⟨s, h1, hd, h2⟩ := h.start
    have hs : sim ∈ acceptedSims := by
      by_contra hs
      rw [(C134_refused env _ sim hs path true ans).2.1] at hcat
      simp at hcat
    simp only [perform, checkSim] at hcat ⊢
    rw [if_pos hs] at hcat ⊢
    dsimp only at hcat ⊢
    rw [if_neg hp, h1] at hcat ⊢
    dsimp only at hcat ⊢
    by_cases hx : env.exist path = true
    · have hne : path ≠ [] := by
        rintro rfl
        rw [hE] at hx
        cases hx
      rw [if_pos hx] at hcat ⊢
      simp only [if_true] at hcat ⊢
      rcases newPath_cases env s .sim sim (some path) true ans with ⟨r, p', hr', e⟩ | ⟨o, o1, o2, e⟩
      · have hpp := newPath_given env s .sim sim path ans hne hp p' (by rw [e])
        rw [e] at hcat ⊢
        simp only [Except.ok.injEq, Place.mk.injEq, and_true] at hcat
        subst hpp
        subst hcat
        obtain ⟨m, m1, m2⟩ := loadPathFile_append (h.files r .sim) sim (env.abspath path) (accepted_clean sim hs) hn hr
        have hroot : ((performAll env fresh.disk ps).2.foldl note empty).root = some r := by rw [← h2.root, hr']
        obtain ⟨s', s1, s2⟩ := start_after _ _ h r hroot _ m m1
        have hdisk : (store s r .sim sim (env.abspath path)).disk =
            { (performAll env fresh.disk ps).1 with
              files := setFile (performAll env fresh.disk ps).1.files r .sim
                (appendFile ((performAll env fresh.disk ps).1.files r .sim) (entry sim (env.abspath path))) } := by
          unfold store
          rw [hd]
        dsimp only
        rw [hdisk]
        unfold lookUp
        rw [s1]
        dsimp only
        rw [s2, m2]
      · rw [e] at hcat
        cases o with
        | registered p => exact absurd rfl (o1 p)
        | rootSet p => simp at hcat
        | loaded => simp at hcat
        | kept => simp at hcat
        | waiting => simp at hcat
        | raised e => simp at hcat
    · rw [if_neg hx] at hcat
      simp at hcat
  · intro hb e
    have : ∀ c ∈ beforeBlank p, c ≠ ' ' := by
      intro c hc
      have := List.all_eq_true.1 (List.all_takeWhile (p := fun c => decide (c ≠ ' ')) (l := p)) c hc
      simpa using this
    exact this ' ' (by rw [e]; exact hb) rfl

/-- C134 as one would like it: the simulation is opened where its catalogue has just been put. -/
def C134_full : Prop :=
  ∀ (env : Env) (ps : List Program) (sim path : Text) (ans : List Text) (p : Text), env.exist [] = false →
    (perform env (performAll env fresh.disk ps).1 (.catalogue sim path true ans)).2 = .ok ⟨p, true⟩ →
    (perform env (perform env (performAll env fresh.disk ps).1 (.catalogue sim path true ans)).1 (.simulation sim)).2
      = .ok ⟨p, true⟩

/-- Every path but the empty one exists. -/
def plainEnv : Env := { idEnv with exist := fun t => t ≠ [], expanduser := fun t => if t = ['~'] then "/home".toList else t }

/-- C134 fails for a directory with a blank in its name. -/
theorem C134_full_false : ¬ C134_full := by
  intro H
  have := H plainEnv [.setup ["/d".toList, "y".toList]] "TNG100-1".toList "/my data".toList [] "/my data".toList
    (by decide) rfl
  have h2 := congrArg Except.toOption this
  revert h2
  decide +kernel

/-! ## Setting up -/

/-- C134: `setupsimim` with an empty answer and a confirmation makes the home directory the root, and remembers it. -/
theorem C134_setup_home (env : Env) (rest : List Text) (hx : env.exist (env.expanduser ['~']) = true) :
    (perform env fresh.disk (.setup ([] :: ['y'] :: rest))).2 = .ok ⟨env.abspath (env.expanduser ['~']), true⟩ ∧
    (perform env fresh.disk (.setup ([] :: ['y'] :: rest))).1.rootFile = some (env.abspath (env.expanduser ['~'])) := by
  have hs : start fresh.disk = ({ fresh with mem := fun _ => [] }, .loaded) := rfl
  simp only [perform]
  rw [hs]
  simp only [ne_eq, not_true_eq_false, false_and, if_false, if_true, setupPath, chooseRoot, fresh, hx, confirm, commitRoot,
    loadPaths, loadPathFile, List.cons.injEq, and_true]

/-- C134, against: a directory given with `~`, as one types it in a shell, is refused by `setupsimim` even though `_setuppath` itself would
accept it: whether it exists is asked before `~` is replaced. -/
theorem C134_tilde (env : Env) (d : Disk) (s : State) (h : start d = (s, .loaded)) (root : Text) (rest : List Text)
    (hne : root ≠ []) (hx : env.exist root = false) :
    perform env d (.setup (root :: rest)) = (d, .error (.raised .nameError)) := by
  simp only [perform]
  rw [h]
  simp only
  rw [if_pos ⟨hne, hx⟩]

/-! ## The hypotheses can be met -/

/-- Setup, a catalogue with automatic path, a lightcone maker, the catalogue put elsewhere (after an unclear answer), and a
third place that is not remembered. -/
def demoPrograms : List Program :=
  [.setup ["/d".toList, "y".toList], .catalogue "TNG100-1".toList auto true [], .maker "TNG100-1".toList [],
   .catalogue "TNG100-1".toList "/x".toList true ["what".toList, "y".toList],
   .catalogue "TNG100-1".toList "/z".toList true ["n".toList]]

example : plainEnv.exist [] = false ∧
    (performAll plainEnv fresh.disk demoPrograms).2.map (fun x => x.2.toOption) =
      [some ⟨"/d".toList, true⟩, some ⟨"/d/TNG100-1".toList, true⟩, some ⟨"/d/TNG100-1".toList, true⟩,
       some ⟨"/x".toList, true⟩, some ⟨"/z".toList, false⟩] ∧
    (∀ x ∈ (performAll plainEnv fresh.disk demoPrograms).2, CleanPlace x) ∧
    (perform plainEnv (performAll plainEnv fresh.disk demoPrograms).1 (.simulation "TNG100-1".toList)).2.toOption =
      some ⟨"/x".toList, true⟩ := by
  refine ⟨by decide, by decide +kernel, ?_, by decide +kernel⟩
  have e : (performAll plainEnv fresh.disk demoPrograms).2 = demoPrograms.zip
      [.ok ⟨"/d".toList, true⟩, .ok ⟨"/d/TNG100-1".toList, true⟩, .ok ⟨"/d/TNG100-1".toList, true⟩,
       .ok ⟨"/x".toList, true⟩, .ok ⟨"/z".toList, false⟩] := by rfl
  rw [e]
  intro x hx
  simp only [demoPrograms, List.zip_cons_cons, List.zip_nil_left, List.mem_cons, List.not_mem_nil, or_false] at hx
  rcases hx with rfl | rfl | rfl | rfl | rfl <;> simp [CleanPlace, Clean, CleanRoot]

/-- A directory given with `~`. -/
example : (perform { plainEnv with exist := fun t => t.head? ≠ some '~' ∧ t ≠ [], expanduser := fun _ => "/home/data".toList }
    fresh.disk (.setup ["~/data".toList, "y".toList])).2.toOption = none := by decide +kernel

end Verif.Paths
