import Verif.Lemmas.Paths

/-!
# C01, C02: the path registry (`simim/_paths.py`)
-/

namespace Verif.Paths
open Spec

/-- The lookups a registry should give. -/
def Spec.Registry.now (a : Registry) (k : Kind) (n : Text) : Option Text :=
  match a.root with
  | none => none
  | some r => a.lookup r k n

/-- **C01, full statement.**  After any calls on a fresh installation, a session started
afterwards loads and resolves every name to the path most recently registered. -/
def C01_full : Prop :=
  ∀ (env : Env) (ops : List Op),
    (newSession (run env fresh ops).1).2 = .loaded ∧
    ∀ k n, ((newSession (run env fresh ops).1).1.mem k).get? n
      = (history (run env fresh ops).2).now k n

/-- The full statement holds for all histories whose registered names and paths contain no
blank and no line break (and whose roots contain no line break).  Missing: names or paths with blanks or
line breaks, for which the statement is false (`C01_full_false`). -/
theorem C01_reload_partial (env : Env) (ops : List Op)
    (hc : ∀ ev ∈ (run env fresh ops).2, CleanEvent ev) :
    (newSession (run env fresh ops).1).2 = .loaded ∧
    ∀ k n, ((newSession (run env fresh ops).1).1.mem k).get? n
      = (history (run env fresh ops).2).now k n := by
  have h := run_inv env fresh empty ops inv_fresh hc
  have hs := loadPaths_spec { (run env fresh ops).1 with root := (history (run env fresh ops).2).root }
    (history (run env fresh ops).2) rfl h.files
  have e : newSession (run env fresh ops).1
      = loadPaths { (run env fresh ops).1 with root := (history (run env fresh ops).2).root } := by
    unfold newSession
    rw [h.rootFile]
    rfl
  rw [e]
  exact ⟨hs.1, hs.2.2.2⟩

/-- The running session agrees with the same specification. -/
theorem C01_session_partial (env : Env) (ops : List Op)
    (hc : ∀ ev ∈ (run env fresh ops).2, CleanEvent ev) (k : Kind) (n : Text) :
    (((run env fresh ops).1.mem k).get? n) = (history (run env fresh ops).2).now k n :=
  (run_inv env fresh empty ops inv_fresh hc).mem k n

/-- An operating system in which every path exists and paths are already absolute. -/
def idEnv : Env :=
  { exist := fun _ => true, abspath := id, expanduser := id,
    autoPath := fun _ r n => r ++ '/' :: n }

/-- Setup, register twice under one name (the second confirmed after an invalid answer),
register another one. -/
def demoOps : List Op :=
  [ .setup "/d".toList true ["y".toList],
    .newPath .sim "TNG".toList (some "auto".toList) true [],
    .newPath .sim "TNG".toList (some "/x".toList) true ["?".toList, "y".toList],
    .newPath .lc "TNG".toList (some "/l".toList) true [] ]

-- the hypothesis of `C01_reload_partial` is met by a history with three registrations
example : ∀ ev ∈ (run idEnv fresh demoOps).2, CleanEvent ev := by
  have : (run idEnv fresh demoOps).2.map Prod.snd =
      [.rootSet "/d".toList, .registered "/d/TNG".toList, .registered "/x".toList,
       .registered "/l".toList] := by decide
  intro ev hev
  have e : (run idEnv fresh demoOps).2 = demoOps.zip
      [.rootSet "/d".toList, .registered "/d/TNG".toList, .registered "/x".toList,
       .registered "/l".toList] := by rfl
  rw [e] at hev
  simp only [demoOps, List.zip_cons_cons, List.zip_nil_left, List.mem_cons,
    List.not_mem_nil, or_false] at hev
  rcases hev with rfl | rfl | rfl | rfl <;>
    simp [CleanEvent, Clean, CleanRoot]

example : ((newSession (run idEnv fresh demoOps).1).1.mem .sim).get? "TNG".toList
    = some "/x".toList := by decide

/-- The full statement is false: a directory with a blank in its name is cut at the blank. -/
theorem C01_full_false : ¬ C01_full := by
  intro h
  have := (h idEnv [.setup "/d".toList false [],
    .newPath .sim "a".toList (some "/my data".toList) true []]).2 .sim "a".toList
  revert this
  decide

/-- A name with a line break even makes every later session fail to start. -/
theorem C01_linebreak_blocks_sessions :
    (newSession (run idEnv fresh [.setup "/d".toList false [],
      .newPath .sim "a\nb".toList (some "/x".toList) true []]).1).2 = .raised .indexError := by
  decide

/-! ### C02 -/

/-- Registering `name` changes no other lookup of the running session, and the registry files
change at most by one entry appended to the file of that kind under the current root. -/
theorem C02_frame (env : Env) (s : State) (k : Kind) (name : Text) (arg : Option Text)
    (co : Bool) (ans : List Text) :
    let s' := (newPath env s k name arg co ans).1
    (∀ k' n, (k' ≠ k ∨ n ≠ name) → (s'.mem k').get? n = (s.mem k').get? n) ∧
    s'.root = s.root ∧ s'.disk.rootFile = s.disk.rootFile ∧
    (∀ r k', (s.root ≠ some r ∨ k' ≠ k) → s'.disk.files r k' = s.disk.files r k') ∧
    (∀ r, s.root = some r → s'.disk.files r k = s.disk.files r k ∨
      ∃ p, s'.disk.files r k = some ((s.disk.files r k).getD [] ++ (name ++ ' ' :: p ++ ['\n']))) := by
  rcases newPath_cases env s k name arg co ans with ⟨r, p, hr, e⟩ | ⟨o, -, -, e⟩
  · simp only [e]
    refine ⟨?_, rfl, rfl, ?_, ?_⟩
    · intro k' n h
      by_cases hk : k' = k
      · subst hk
        have hn : ¬ name = n := fun e => by rcases h with h | h <;> simp_all
        simp [store, setMem, hn]
      · simp [store, setMem, hk]
    · intro r' k' h
      have : ¬ (r' = r ∧ k' = k) := by
        rintro ⟨rfl, rfl⟩
        rcases h with h | h
        · exact h hr
        · exact h rfl
      simp [store, setFile, this]
    · intro r' hr'
      rw [hr] at hr'
      cases hr'
      exact .inr ⟨p, by simp [store, setFile, appendFile, entry]⟩
  · simp only [e]
    simp

/-- Answers that are neither yes nor no only repeat the question. -/
theorem confirm_junk (junk : List Text) (h : ∀ a ∈ junk, a ≠ ['y'] ∧ a ≠ ['n'])
    (rest : List Text) : confirm (junk ++ rest) = confirm rest := by
  induction junk with
  | nil => rfl
  | cons a as ih =>
    have ha := h a (by simp)
    simp [confirm, ha.1, ha.2, ih (fun b hb => h b (by simp [hb]))]

/-- If the name is known and the first recognised answer is no, nothing at all changes. -/
theorem C02_declined (env : Env) (s : State) (r : Text) (k : Kind) (name : Text)
    (arg : Option Text) (junk rest : List Text) (hroot : s.root = some r)
    (hknown : ((s.mem k).get? name).isSome)
    (hj : ∀ a ∈ junk, a ≠ ['y'] ∧ a ≠ ['n']) :
    newPath env s k name arg true (junk ++ ['n'] :: rest) = (s, .kept) := by
  have : (s.mem k).has name = true := hknown
  simp [newPath, hroot, this, confirm_junk junk hj, confirm]

/-- While no recognised answer has been given, nothing changes. -/
theorem C02_unanswered (env : Env) (s : State) (r : Text) (k : Kind) (name : Text)
    (arg : Option Text) (junk : List Text) (hroot : s.root = some r)
    (hknown : ((s.mem k).get? name).isSome)
    (hj : ∀ a ∈ junk, a ≠ ['y'] ∧ a ≠ ['n']) :
    newPath env s k name arg true junk = (s, .waiting) := by
  have : (s.mem k).has name = true := hknown
  have hc := confirm_junk junk hj []
  rw [List.append_nil] at hc
  simp [newPath, hroot, this, hc, confirm]

/-- If the first recognised answer is yes, a path given explicitly is registered: the session
resolves the name to its absolute path. -/
theorem C02_accepted (env : Env) (s : State) (r : Text) (k : Kind) (name p : Text)
    (junk rest : List Text) (hroot : s.root = some r)
    (hknown : ((s.mem k).get? name).isSome)
    (hj : ∀ a ∈ junk, a ≠ ['y'] ∧ a ≠ ['n']) (hp : p ≠ []) (hp' : p ≠ "auto".toList) :
    let out := newPath env s k name (some p) true (junk ++ ['y'] :: rest)
    out.2 = .registered (env.abspath p) ∧
    (out.1.mem k).get? name = some (env.abspath p) := by
  have : (s.mem k).has name = true := hknown
  have hp'' : p ≠ ['a', 'u', 't', 'o'] := hp'
  simp [newPath, hroot, this, confirm_junk junk hj, confirm, newPathTail, hp, hp'',
    store, setMem]

/-- Without a root the registration is refused and nothing changes. -/
theorem C02_no_root (env : Env) (s : State) (k : Kind) (name : Text)
    (arg : Option Text) (co : Bool) (ans : List Text) (h : s.root = none) :
    newPath env s k name arg co ans = (s, .raised .valueError) := by
  simp [newPath, h]

-- the hypotheses of `C02_declined` are met after one registration
example : let s := (run idEnv fresh (demoOps.take 2)).1
    s.root = some "/d".toList ∧ ((s.mem .sim).get? "TNG".toList).isSome ∧
    (newPath idEnv s .sim "TNG".toList (some "/x".toList) true
      ["maybe".toList, ['n'], ['y']]).2 = .kept := by
  decide

end Verif.Paths
