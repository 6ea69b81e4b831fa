import Verif.Spec.PathsShared
import Verif.Props.Paths

set_option linter.unusedSectionVars false

/-!
# C130: sessions side by side share one registry
-/

namespace Verif.Paths
open Spec

/-- `setupPath` is the questions, then the writing, then the reading. -/
theorem setupPath_ask (env : Env) (s : State) (root : Text) (cu : Bool) (ans : List Text) :
    setupPath env s root cu ans = match askRoot env s root cu ans with
      | .error o => (s, o)
      | .ok r => commitRoot s r := by
  unfold setupPath askRoot
  cases chooseRoot s (env.expanduser root) ans with
  | none => rfl
  | some p =>
    obtain ⟨root', ans'⟩ := p
    dsimp only
    by_cases he : env.exist root' = true
    · simp only [he, if_true]
      cases cu
      · rfl
      · simp only [if_true]
        cases confirm ans' <;> rfl
    · simp only [he]
      rfl

theorem confirm_yes (ans rest : List Text) (h : confirm ans = .yes rest) : ['y'] ∈ ans := by
  induction ans with
  | nil => simp [confirm] at h
  | cons x ans ih =>
    unfold confirm at h
    split at h
    · rename_i hx; simp [hx]
    · split at h
      · simp at h
      · simp [ih h]

theorem confirm_suffix (ans rest : List Text) (h : confirm ans = .yes rest ∨ confirm ans = .no rest) :
    ∀ x ∈ rest, x ∈ ans := by
  induction ans with
  | nil => simp [confirm] at h
  | cons a ans ih =>
    unfold confirm at h
    split at h
    · simp only [Answer.yes.injEq, reduceCtorEq, or_false] at h
      subst h
      intro x hx; simp [hx]
    · split at h
      · simp only [reduceCtorEq, Answer.no.injEq, false_or] at h
        subst h
        intro x hx; simp [hx]
      · intro x hx; simp [ih h x hx]

/-- C130: a root directory that the user is asked about is written only after the answer `y`; it exists, and it is the one that was asked for or
the old one. -/
theorem C130_root_confirmed (env : Env) (s : State) (root : Text) (ans : List Text) (r : Text)
    (h : askRoot env s root true ans = .ok r) :
    ['y'] ∈ ans ∧ ∃ q, env.exist q = true ∧ r = env.abspath q ∧ (q = env.expanduser root ∨ s.root = some q) := by
  unfold askRoot at h
  split at h
  · simp at h
  · rename_i q as hc
    have hq : (∀ x ∈ as, x ∈ ans) ∧ (q = env.expanduser root ∨ s.root = some q) := by
      unfold chooseRoot at hc
      split at hc
      · simp only [Option.some.injEq, Prod.mk.injEq] at hc
        obtain ⟨rfl, rfl⟩ := hc
        exact ⟨fun _ hx => hx, .inl rfl⟩
      · rename_i old hold
        split at hc
        · simp only [Option.some.injEq, Prod.mk.injEq] at hc
          obtain ⟨rfl, rfl⟩ := hc
          exact ⟨fun _ hx => hx, .inl rfl⟩
        · split at hc
          · simp at hc
          · rename_i rest hr
            simp only [Option.some.injEq, Prod.mk.injEq] at hc
            obtain ⟨rfl, rfl⟩ := hc
            exact ⟨confirm_suffix ans _ (.inr hr), .inr hold⟩
          · rename_i rest hr
            simp only [Option.some.injEq, Prod.mk.injEq] at hc
            obtain ⟨rfl, rfl⟩ := hc
            exact ⟨confirm_suffix ans _ (.inl hr), .inl rfl⟩
    split at h
    · rename_i hx
      simp only [if_true] at h
      split at h
      · simp at h
      · simp at h
      · rename_i rest hr
        simp only [Except.ok.injEq] at h
        exact ⟨hq.1 _ (confirm_yes as rest hr), q, hx, h.symm, hq.2⟩
    · simp at h

theorem board_snoc (log : List Entry) (e : Entry) : board (log ++ [e]) = (board log).after e := by
  simp [board]

/-- What session `i` shows of registry `k`: what was registered at some moment since it began to
read. -/
def Sees (i : ℕ) (s : Sess) (log : List Entry) (k : Kind) (n : Text) : Prop :=
  ∃ a e b c, log = a ++ e :: b ∧ Opens i e ∧ c <+: b ∧
    (∀ x ∈ b, ¬ Opens i x) ∧
    (s.mem k).get? n = (board (a ++ e :: c)).find s.root k n

/-- The invariant of all schedules. -/
structure Shared (w : World) (log : List Entry) : Prop where
  rootFile : loadRootFile w.disk.rootFile = .ok (board log).reg.root
  files : ∀ r k, FileHolds (w.disk.files r k) ((board log).reg.lookup r k)
  sess : ∀ i s, w.sess i = some s → s.root = (board log).rootOf i ∧
    (s.root = none → s.todo = []) ∧
    (∃ a e b, log = a ++ e :: b ∧ Opens i e ∧ ∀ x ∈ b, ¬ Opens i x) ∧
    ∀ k, k ∉ s.todo → ∀ n, Sees i s log k n

/-- A turn that is not an opening keeps what is seen. -/
theorem Sees.snoc {i : ℕ} {s : Sess} {log : List Entry} {k : Kind} {n : Text} (h : Sees i s log k n)
    (x : Entry) (hx : ¬ Opens i x) : Sees i s (log ++ [x]) k n := by
  obtain ⟨a, e, b, c, h1, h2, h3, h4, h5⟩ := h
  refine ⟨a, e, b ++ [x], c, by rw [h1]; simp, h2, h3.trans (List.prefix_append _ _), ?_, h5⟩
  intro y hy
  rcases List.mem_append.1 hy with hy | hy
  · exact h4 y hy
  · simp only [List.mem_singleton] at hy; subst hy; exact hx

theorem last_snoc {i : ℕ} {log : List Entry} (h : ∃ a e b, log = a ++ e :: b ∧ Opens i e ∧
    ∀ x ∈ b, ¬ Opens i x) (x : Entry) (hx : ¬ Opens i x) :
    ∃ a e b, log ++ [x] = a ++ e :: b ∧ Opens i e ∧ ∀ x ∈ b, ¬ Opens i x := by
  obtain ⟨a, e, b, h1, h2, h3⟩ := h
  refine ⟨a, e, b ++ [x], by rw [h1]; simp, h2, ?_⟩
  intro y hy
  rcases List.mem_append.1 hy with hy | hy
  · exact h3 y hy
  · simp only [List.mem_singleton] at hy; subst hy; exact hx

/-- The turn of another session that leaves the registry as it is. -/
theorem shared_idle {w : World} {log : List Entry} (h : Shared w log) (x : Entry)
    (hb : (board log).after x = board log) (hx : ∀ i, ¬ Opens i x) : Shared w (log ++ [x]) := by
  refine ⟨?_, ?_, ?_⟩
  · rw [board_snoc, hb]; exact h.rootFile
  · rw [board_snoc, hb]; exact h.files
  · intro i s hs
    obtain ⟨a1, a2, a3, a4⟩ := h.sess i s hs
    refine ⟨by rw [board_snoc, hb]; exact a1, a2, last_snoc a3 x (hx i), fun k hk n => ?_⟩
    exact (a4 k hk n).snoc x (hx i)

/-- Any schedule keeps the invariant. -/
theorem shared_turn (env : Env) (w : World) (log : List Entry) (h : Shared w log) (i : ℕ) (t : Turn)
    (hc : CleanEntryOf (i, t, (w.turn env i t).2)) :
    Shared (w.turn env i t).1 (log ++ [(i, t, (w.turn env i t).2)]) := by
  cases t with
  | begin =>
    have hroot := h.rootFile
    cases hr : (board log).reg.root with
    | none =>
      have ht : w.turn env i .begin = (w.put i (some { root := none, mem := fun _ => [] }), some .loaded) := by
        unfold World.turn; rw [hroot, hr]
      rw [ht]
      have hb : (board log).after (i, .begin, some Outcome.loaded) = (board log).use i none := by
        show (board log).use i (board log).reg.root = _
        rw [hr]
      refine ⟨?_, ?_, ?_⟩
      · rw [board_snoc, hb]; exact hroot
      · rw [board_snoc, hb]; exact h.files
      · intro j s hs
        by_cases hj : j = i
        · subst hj
          simp only [World.put, if_true, Option.some.injEq] at hs
          subst hs
          refine ⟨by rw [board_snoc, hb]; simp [Board.use], fun _ => rfl, ⟨log, _, [], rfl, rfl, by simp⟩, ?_⟩
          intro k _ n
          exact ⟨log, _, [], [], rfl, rfl, by simp, by simp, rfl⟩
        · simp only [World.put, if_neg hj] at hs
          obtain ⟨a1, a2, a3, a4⟩ := h.sess j s hs
          have hx : ¬ Opens j (i, .begin, some Outcome.loaded) := fun e => hj e.symm
          refine ⟨by rw [board_snoc, hb]; simp [Board.use, hj, a1], a2, last_snoc a3 _ hx, ?_⟩
          intro k hk n
          exact (a4 k hk n).snoc _ hx
    | some r =>
      have ht : w.turn env i .begin =
          (w.put i (some { root := some r, mem := fun _ => [], todo := readOrder, born := false }), none) := by
        unfold World.turn; rw [hroot, hr]
      rw [ht]
      have hb : (board log).after (i, .begin, none) = (board log).use i (some r) := by
        show (board log).use i (board log).reg.root = _
        rw [hr]
      refine ⟨?_, ?_, ?_⟩
      · rw [board_snoc, hb]; exact hroot
      · rw [board_snoc, hb]; exact h.files
      · intro j s hs
        by_cases hj : j = i
        · subst hj
          simp only [World.put, if_true, Option.some.injEq] at hs
          subst hs
          refine ⟨by rw [board_snoc, hb]; simp [Board.use], by simp, ⟨log, _, [], rfl, rfl, by simp⟩, ?_⟩
          intro k hk
          exact absurd (by cases k <;> simp [readOrder]) hk
        · simp only [World.put, if_neg hj] at hs
          obtain ⟨a1, a2, a3, a4⟩ := h.sess j s hs
          have hx : ¬ Opens j (i, .begin, none) := fun e => hj e.symm
          refine ⟨by rw [board_snoc, hb]; simp [Board.use, hj, a1], a2, last_snoc a3 _ hx, ?_⟩
          intro k hk n
          exact (a4 k hk n).snoc _ hx
  | read =>
    have hbd : ∀ o, (board log).after (i, .read, o) = board log := fun o => rfl
    have hop : ∀ j o, ¬ Opens j (i, .read, o) := fun j o e => e
    cases hs : w.sess i with
    | none =>
      have ht : w.turn env i .read = (w, none) := by unfold World.turn; rw [hs]
      rw [ht]
      exact shared_idle h _ (hbd _) (fun j => hop j _)
    | some s =>
      obtain ⟨a1, a2, a3, a4⟩ := h.sess i s hs
      cases hr : s.root with
      | none =>
        have ht : w.turn env i .read = (w, none) := by
          unfold World.turn; rw [hs]; simp only [hr]
        rw [ht]
        exact shared_idle h _ (hbd _) (fun j => hop j _)
      | some r =>
        cases htd : s.todo with
        | nil =>
          have ht : w.turn env i .read = (w, none) := by
            unfold World.turn; rw [hs]; simp only [hr, htd]
          rw [ht]
          exact shared_idle h _ (hbd _) (fun j => hop j _)
        | cons k rest =>
          obtain ⟨d, hd, hdm⟩ := (h.files r k).load
          have ht : w.turn env i .read =
              (w.put i (some { s with mem := setMem s.mem k d, todo := rest, born := s.born || rest.isEmpty }),
                if rest = [] then some .loaded else none) := by
            unfold World.turn; rw [hs]; simp only [hr, htd, hd]
          rw [ht]
          refine ⟨?_, ?_, ?_⟩
          · rw [board_snoc, hbd]; exact h.rootFile
          · rw [board_snoc, hbd]; exact h.files
          · intro j s' hs'
            by_cases hj : j = i
            · subst hj
              simp only [World.put, if_true, Option.some.injEq] at hs'
              subst hs'
              refine ⟨by rw [board_snoc, hbd]; exact a1, fun hn => by simp [hr] at hn, last_snoc a3 _ (hop _ _), ?_⟩
              intro k' hk' n
              by_cases hkk : k' = k
              · subst hkk
                obtain ⟨a, e, b, h1, h2, h3⟩ := a3
                refine ⟨a, e, b ++ [(j, .read, if rest = [] then some .loaded else none)], b, by rw [h1]; simp, h2,
                  List.prefix_append _ _, ?_, ?_⟩
                · intro y hy
                  rcases List.mem_append.1 hy with hy | hy
                  · exact h3 y hy
                  · simp only [List.mem_singleton] at hy; subst hy; exact hop _ _
                · show ((setMem s.mem k' d) k').get? n = (board (a ++ e :: b)).find s.root k' n
                  rw [← h1, hr]
                  simp only [setMem, if_true, Board.find]
                  exact hdm n
              · have : k' ∉ s.todo := by
                  rw [htd]
                  simp only [List.mem_cons, not_or]
                  exact ⟨hkk, hk'⟩
                obtain ⟨a, e, b, c, h1, h2, h3, h4, h5⟩ := (a4 k' this n).snoc _ (hop j _)
                refine ⟨a, e, b, c, h1, h2, h3, h4, ?_⟩
                show ((setMem s.mem k d) k').get? n = _
                simp only [setMem, if_neg hkk]
                exact h5
            · simp only [World.put, if_neg hj] at hs'
              obtain ⟨c1, c2, c3, c4⟩ := h.sess j s' hs'
              refine ⟨by rw [board_snoc, hbd]; exact c1, c2, last_snoc c3 _ (hop _ _), ?_⟩
              intro k' hk' n
              exact (c4 k' hk' n).snoc _ (hop _ _)
  | newPath k name arg co ans =>
    have hop : ∀ j o, ¬ Opens j (i, .newPath k name arg co ans, o) := fun j o e => e
    cases hs : w.sess i with
    | none =>
      have ht : w.turn env i (.newPath k name arg co ans) = (w, none) := by unfold World.turn; rw [hs]
      rw [ht]
      exact shared_idle h _ rfl (fun j => hop j _)
    | some s =>
      obtain ⟨a1, a2, a3, a4⟩ := h.sess i s hs
      by_cases htd : s.todo = []
      · have ht : w.turn env i (.newPath k name arg co ans) =
            (({ w with disk := (newPath env ⟨w.disk, s.root, s.mem⟩ k name arg co ans).1.disk }).put i
              (some { s with mem := (newPath env ⟨w.disk, s.root, s.mem⟩ k name arg co ans).1.mem }),
              some (newPath env ⟨w.disk, s.root, s.mem⟩ k name arg co ans).2) := by
          unfold World.turn
          rw [hs]; simp only [if_pos htd]
        rw [ht] at hc ⊢
        rcases newPath_cases env ⟨w.disk, s.root, s.mem⟩ k name arg co ans with ⟨r, p, hr, e⟩ | ⟨o, h1, h2, e⟩
        · simp only [e] at hc ⊢
          obtain ⟨hn, hp⟩ : Clean name ∧ Clean p := hc
          have hu : (board log).rootOf i = some r := by rw [← a1]; exact hr
          have hr' : s.root = some r := hr
          refine ⟨?_, ?_, ?_⟩
          · rw [board_snoc]; exact h.rootFile
          · rw [board_snoc]
            intro r' k'
            by_cases hrk : r' = r ∧ k' = k
            · obtain ⟨rfl, rfl⟩ := hrk
              obtain ⟨es, hes, hf, hm⟩ := h.files r' k'
              refine ⟨es ++ [(name, p)], ?_, ?_, ?_⟩
              · intro e he
                rcases List.mem_append.1 he with he | he
                · exact hes e he
                · simp only [List.mem_singleton] at he; subst he; exact ⟨hn, hp⟩
              · simp [World.put, store, setFile, appendFile, hf, fileText_append]
              · intro n
                rw [dictOf_append, PyDict.get?_set, hm n]
                by_cases hnn : name = n
                · subst hnn; simp [Board.after, hu]
                · have : ¬ n = name := fun e => hnn e.symm
                  simp [Board.after, hnn, this]
            · have e1 : (store ⟨w.disk, s.root, s.mem⟩ r k name p).disk.files r' k' = w.disk.files r' k' := by
                simp [store, setFile, hrk]
              have e2 : ((board log).after (i, .newPath k name arg co ans, some (.registered p))).reg.lookup r' k'
                  = (board log).reg.lookup r' k' := by
                funext n
                have : ¬ ((board log).rootOf i = some r' ∧ k' = k ∧ n = name) := by
                  rintro ⟨g1, g2, -⟩
                  rw [hu] at g1
                  exact hrk ⟨(Option.some.inj g1).symm, g2⟩
                simp [Board.after, this]
              rw [e2]
              show FileHolds ((store ⟨w.disk, s.root, s.mem⟩ r k name p).disk.files r' k') _
              rw [e1]
              exact h.files r' k'
          · intro j s' hs'
            by_cases hj : j = i
            · subst hj
              simp only [World.put, if_true, Option.some.injEq] at hs'
              subst hs'
              refine ⟨by rw [board_snoc]; exact a1, a2, last_snoc a3 _ (hop _ _), ?_⟩
              intro k' hk' n
              by_cases hkn : k' = k ∧ n = name
              · obtain ⟨rfl, rfl⟩ := hkn
                obtain ⟨a, e, b, h1, h2, h3⟩ := last_snoc a3 (j, .newPath k' n arg co ans,
                  some (.registered p)) (hop _ _)
                refine ⟨a, e, b, b, h1, h2, List.prefix_refl b, h3, ?_⟩
                rw [← h1, board_snoc]
                simp [store, setMem, Board.find, hr', Board.after, hu, PyDict.get?_set]
              · obtain ⟨a, e, b, c, h1, h2, h3, h4, h5⟩ := (a4 k' hk' n).snoc
                  (j, .newPath k name arg co ans, some (.registered p)) (hop _ _)
                refine ⟨a, e, b, c, h1, h2, h3, h4, ?_⟩
                rw [← h5]
                show ((store ⟨w.disk, s.root, s.mem⟩ r k name p).mem k').get? n = _
                simp only [store, setMem]
                by_cases hkk : k' = k
                · subst hkk
                  have hnn : ¬ name = n := fun e => hkn ⟨rfl, e.symm⟩
                  simp [PyDict.get?_set, hnn]
                · simp [hkk]
            · simp only [World.put, if_neg hj] at hs'
              obtain ⟨c1, c2, c3, c4⟩ := h.sess j s' hs'
              refine ⟨by rw [board_snoc]; exact c1, c2, last_snoc c3 _ (hop _ _), ?_⟩
              intro k' hk' n
              exact (c4 k' hk' n).snoc _ (hop _ _)
        · simp only [e]
          have hw : ({ w with disk := w.disk } : World).put i (some { s with mem := s.mem }) = w := by
            have : w.put i (some s) = w := by
              unfold World.put
              congr 1
              funext j
              by_cases hj : j = i
              · subst hj; simp [hs]
              · simp [hj]
            exact this
          rw [hw]
          refine shared_idle h _ ?_ (fun j => hop j _)
          cases o <;> simp_all [Board.after]
      · have ht : w.turn env i (.newPath k name arg co ans) = (w, none) := by
          unfold World.turn; rw [hs]; simp only [if_neg htd]
        rw [ht]
        exact shared_idle h _ rfl (fun j => hop j _)
  | setup root cu ans =>
    cases hs : w.sess i with
    | none =>
      have ht : w.turn env i (.setup root cu ans) = (w, none) := by unfold World.turn; rw [hs]
      rw [ht]
      exact shared_idle h _ rfl (fun j e => e)
    | some s =>
      obtain ⟨a1, a2, a3, a4⟩ := h.sess i s hs
      by_cases htd : s.todo = []
      · cases hask : askRoot env ⟨w.disk, s.root, s.mem⟩ root cu ans with
        | error o =>
          have ht : w.turn env i (.setup root cu ans) = (w, some o) := by
            unfold World.turn; rw [hs]; simp only [if_pos htd, hask]
          have ho : ∀ p, o ≠ .rootSet p := by
            intro p hp
            subst hp
            unfold askRoot at hask
            split at hask
            · cases hask
            · split at hask
              · split at hask
                · split at hask <;> cases hask
                · cases hask
              · cases hask
          rw [ht]
          refine shared_idle h _ ?_ ?_
          · cases o <;> simp_all [Board.after]
          · intro j; cases o <;> simp_all [Opens]
        | ok r =>
          have ht : w.turn env i (.setup root cu ans) =
              (({ w with disk := { w.disk with rootFile := some r } } : World).put i
                (some { s with root := some r, todo := readOrder }), some (.rootSet r)) := by
            unfold World.turn; rw [hs]; simp only [if_pos htd, hask]
          rw [ht] at hc ⊢
          have hcr : CleanRoot r := hc
          refine ⟨?_, ?_, ?_⟩
          · rw [board_snoc]; exact loadRootFile_clean r hcr
          · rw [board_snoc]; exact h.files
          · intro j s' hs'
            by_cases hj : j = i
            · subst hj
              simp only [World.put, if_true, Option.some.injEq] at hs'
              subst hs'
              refine ⟨by rw [board_snoc]; simp [Board.after, Board.use], by simp,
                ⟨log, _, [], rfl, rfl, by simp⟩, ?_⟩
              intro k hk
              exact absurd (by cases k <;> simp [readOrder]) hk
            · simp only [World.put, if_neg hj] at hs'
              obtain ⟨c1, c2, c3, c4⟩ := h.sess j s' hs'
              have hx : ¬ Opens j (i, .setup root cu ans, some (.rootSet r)) := fun e => hj e.symm
              refine ⟨by rw [board_snoc]; simp [Board.after, Board.use, hj, c1], c2, last_snoc c3 _ hx, ?_⟩
              intro k' hk' n
              exact (c4 k' hk' n).snoc _ hx
      · have ht : w.turn env i (.setup root cu ans) = (w, none) := by
          unfold World.turn; rw [hs]; simp only [if_neg htd]
        rw [ht]
        exact shared_idle h _ rfl (fun j e => e)

theorem shared_runs (env : Env) (w : World) (log : List Entry) (h : Runs env w log)
    (hc : ∀ e ∈ log, CleanEntryOf e) : Shared w log := by
  induction h with
  | fresh =>
    exact ⟨rfl, fun _ _ => ⟨[], by simp, rfl, fun _ => rfl⟩, by intro i s hs; cases hs⟩
  | @next w log h i t ih =>
    exact shared_turn env w log (ih (fun e he => hc e (by simp [he]))) i t (hc _ (by simp))

/-! ## The claims -/

/-- **C130, nothing is lost.** Whatever sessions were running and in whatever order they took turns:
a session that begins afterwards loads, and resolves every name to the path registered most recently
by any of them under the current root. -/
theorem C130_later_partial (env : Env) (w : World) (log : List Entry) (h : Runs env w log)
    (hc : ∀ e ∈ log, CleanEntryOf e) (s0 : State) (hs0 : s0.disk = w.disk) :
    (newSession s0).2 = .loaded ∧
    ∀ k n, ((newSession s0).1.mem k).get? n = (board log).find (board log).reg.root k n := by
  have hS := shared_runs env w log h hc
  have e : newSession s0 = loadPaths { s0 with root := (board log).reg.root } := by
    unfold newSession
    rw [hs0, hS.rootFile]
  obtain ⟨e1, -, -, e4⟩ := loadPaths_spec { s0 with root := (board log).reg.root } (board log).reg rfl
    (by intro r k; show FileHolds (s0.disk.files r k) _; rw [hs0]; exact hS.files r k)
  rw [e]
  exact ⟨e1, e4⟩

/-- **C130, what a running session shows.** At any time, for every name, it is the path (or the
absence of one) that was current under its root at some moment since it last began to read the files:
nothing is invented, mixed up or older. -/
theorem C130_view_partial (env : Env) (w : World) (log : List Entry) (h : Runs env w log)
    (hc : ∀ e ∈ log, CleanEntryOf e) (i : ℕ) (s : Sess) (hs : w.sess i = some s)
    (hidle : s.todo = []) (k : Kind) (n : Text) :
    s.root = (board log).rootOf i ∧
    ∃ a e b c, log = a ++ e :: b ∧ Opens i e ∧ c <+: b ∧ (∀ x ∈ b, ¬ Opens i x) ∧
      (s.mem k).get? n = (board (a ++ e :: c)).find s.root k n := by
  obtain ⟨a1, -, -, a4⟩ := (shared_runs env w log h hc).sess i s hs
  exact ⟨a1, a4 k (by rw [hidle]; simp) n⟩

/-- The turn of a session that registers a name it need not ask about. -/
theorem turn_register (env : Env) (w : World) (i : ℕ) (s : Sess) (hs : w.sess i = some s)
    (hidle : s.todo = []) (r : Text) (hr : s.root = some r) (k : Kind) (name p : Text)
    (hp : p ≠ [] ∧ p ≠ "auto".toList) (co : Bool) (hnew : co = true → (s.mem k).get? name = none) :
    w.turn env i (.newPath k name (some p) co []) =
      (({ w with disk := (store ⟨w.disk, s.root, s.mem⟩ r k name (env.abspath p)).disk } : World).put i
        (some { s with mem := (store ⟨w.disk, s.root, s.mem⟩ r k name (env.abspath p)).mem }),
        some (.registered (env.abspath p))) := by
  have h1 : newPath env ⟨w.disk, s.root, s.mem⟩ k name (some p) co [] =
      (store ⟨w.disk, s.root, s.mem⟩ r k name (env.abspath p), .registered (env.abspath p)) := by
    unfold newPath
    simp only [hr]
    have hhas : (co && (s.mem k).has name) = false := by
      cases co
      · rfl
      · simp [PyDict.has, hnew rfl]
    rw [hhas]
    have hp2 : ¬ p = ['a', 'u', 't', 'o'] := hp.2
    simp only [newPathTail, Bool.false_eq_true, if_false, Option.some.injEq, reduceCtorEq, hp.1, or_self, hp2,
      Option.getD_some, hr]
  unfold World.turn
  rw [hs]
  simp only [if_pos hidle, h1]

/-- **C130 fails: sessions do not notice each other.** Whenever one session registers a name, every
other session goes on resolving it as before -- whatever it resolved it to -- although both use the
same root, and a session beginning now would get the new path. -/
theorem C130_stale (env : Env) (w : World) (i j : ℕ) (hij : j ≠ i) (t : Turn) :
    (w.turn env i t).1.sess j = w.sess j := by
  unfold World.turn
  split
  · split <;> simp [World.put, hij]
  · split
    · rfl
    · split
      · split
        · simp [World.put, hij]
        · simp [World.put, hij]
      · rfl
  · split
    · rfl
    · split
      · simp [World.put, hij]
      · rfl
  · split
    · rfl
    · split
      · split
        · rfl
        · simp [World.put, hij]
      · rfl

/-- **C130 fails: replaced without asking.** Two sessions with the same root, neither of which knows
the name.  Both register it, with the check for existing paths: both calls succeed without a question,
a later session gets the second path, and the first session goes on using its own. -/
theorem C130_unasked (env : Env) (w : World) (log : List Entry) (h : Runs env w log)
    (hc : ∀ e ∈ log, CleanEntryOf e) (i j : ℕ) (hij : j ≠ i) (si sj : Sess) (hi : w.sess i = some si)
    (hj : w.sess j = some sj) (ti : si.todo = []) (tj : sj.todo = []) (r : Text) (ri : si.root = some r)
    (rj : sj.root = some r) (hcur : (board log).reg.root = some r) (k : Kind) (name p q : Text)
    (hp : p ≠ [] ∧ p ≠ "auto".toList) (hq : q ≠ [] ∧ q ≠ "auto".toList)
    (ci : (si.mem k).get? name = none) (cj : (sj.mem k).get? name = none)
    (hname : Clean name) (hcp : Clean (env.abspath p)) (hcq : Clean (env.abspath q)) :
    ∃ w', Runs env w' (log ++ [(j, .newPath k name (some q) true [], some (.registered (env.abspath q))),
        (i, .newPath k name (some p) true [], some (.registered (env.abspath p)))]) ∧
      (∀ s0 : State, s0.disk = w'.disk → ((newSession s0).1.mem k).get? name = some (env.abspath p)) ∧
      ∃ s', w'.sess j = some s' ∧ s'.root = some r ∧ (s'.mem k).get? name = some (env.abspath q) := by
  have t1 := turn_register env w j sj hj tj r rj k name q hq true (fun _ => cj)
  have r1 := h.next j (.newPath k name (some q) true [])
  rw [t1] at r1
  obtain ⟨w1, hw1⟩ : ∃ w1, w1 = ({ w with
    disk := (store ⟨w.disk, sj.root, sj.mem⟩ r k name (env.abspath q)).disk } : World).put j
        (some { sj with mem := (store ⟨w.disk, sj.root, sj.mem⟩ r k name (env.abspath q)).mem }) := ⟨_, rfl⟩
  simp only at r1
  rw [← hw1] at r1
  have hi1 : w1.sess i = some si := by
    rw [hw1]; simp only [World.put, if_neg (Ne.symm hij)]; exact hi
  have t2 := turn_register env w1 i si hi1 ti r ri k name p hp true (fun _ => ci)
  have r2 := r1.next i (.newPath k name (some p) true [])
  rw [t2] at r2
  refine ⟨_, by simpa using r2, ?_, ?_⟩
  · intro s0 hs0
    have hl := C130_later_partial env _ _ r2 ?_ s0 hs0
    · rw [hl.2]
      have hu : (board log).rootOf i = some r := by
        rw [← ((shared_runs env w log h hc).sess i si hi).1, ri]
      have hu' : ((board log).after (j, .newPath k name (some q) true [],
          some (.registered (env.abspath q)))).rootOf i = some r := hu
      rw [board_snoc, board_snoc]
      have hroot : (((board log).after (j, .newPath k name (some q) true [],
          some (.registered (env.abspath q)))).after (i, .newPath k name (some p) true [],
            some (.registered (env.abspath p)))).reg.root = some r := hcur
      rw [hroot]
      show (if _ ∧ k = k ∧ name = name then _ else _) = _
      exact if_pos ⟨hu', rfl, rfl⟩
    · intro e he
      simp only [List.mem_append, List.mem_singleton] at he
      rcases he with (he | rfl) | rfl
      · exact hc e he
      · exact ⟨hname, hcq⟩
      · exact ⟨hname, hcp⟩
  · refine ⟨{ sj with mem := (store ⟨w.disk, sj.root, sj.mem⟩ r k name (env.abspath q)).mem }, ?_, rj, ?_⟩
    · simp only [World.put, if_neg hij]
      rw [hw1]
      simp [World.put]
    · simp [store, setMem, PyDict.get?_set]

/-- **C130 fails: registrations under a replaced root.** If the root was changed by another session,
what a session with the old root registers -- successfully -- is not found by any later session. -/
theorem C130_old_root (env : Env) (w : World) (log : List Entry) (h : Runs env w log)
    (hc : ∀ e ∈ log, CleanEntryOf e) (i : ℕ) (s : Sess) (hs : w.sess i = some s) (hidle : s.todo = [])
    (r : Text) (hr : s.root = some r) (hcur : (board log).reg.root ≠ some r) (k : Kind) (name p : Text)
    (hp : p ≠ [] ∧ p ≠ "auto".toList) (hname : Clean name) (hcp : Clean (env.abspath p)) :
    (w.turn env i (.newPath k name (some p) false [])).2 = some (.registered (env.abspath p)) ∧
    ∀ s0 s1 : State, s0.disk = w.disk →
      s1.disk = (w.turn env i (.newPath k name (some p) false [])).1.disk →
      ∀ k' n, ((newSession s1).1.mem k').get? n = ((newSession s0).1.mem k').get? n := by
  have t := turn_register env w i s hs hidle r hr k name p hp false (by simp)
  have r1 := h.next i (.newPath k name (some p) false [])
  have hu : (board log).rootOf i = some r := by
    rw [← ((shared_runs env w log h hc).sess i s hs).1, hr]
  refine ⟨by rw [t], ?_⟩
  intro s0 s1 h0 h1 k' n
  have hc1 : ∀ e ∈ log ++ [(i, Turn.newPath k name (some p) false [],
      (w.turn env i (.newPath k name (some p) false [])).2)], CleanEntryOf e := by
    intro e he
    simp only [List.mem_append, List.mem_singleton] at he
    rcases he with he | rfl
    · exact hc e he
    · rw [t]; exact ⟨hname, hcp⟩
  rw [(C130_later_partial env _ _ r1 hc1 s1 h1).2, (C130_later_partial env w log h hc s0 h0).2, board_snoc, t]
  show (Board.find _ (board log).reg.root k' n) = _
  cases hroot : (board log).reg.root with
  | none => rfl
  | some r' =>
    show (if _ ∧ k' = k ∧ n = name then _ else _) = _
    rw [if_neg]
    · rfl
    · rintro ⟨e, -⟩
      rw [hu] at e
      rw [hroot] at hcur
      exact hcur e.symm

/-- C130 in full: every running session resolves every name to the path registered most recently by
any session under its root. -/
def C130_full : Prop :=
  ∀ (env : Env) (w : World) (log : List Entry), Runs env w log → (∀ e ∈ log, CleanEntryOf e) →
    ∀ i s, w.sess i = some s → s.todo = [] → ∀ k n,
      (s.mem k).get? n = (board log).find s.root k n

/-- A schedule: session 0 sets up, session 1 begins, session 0 registers a path, and session 1 too. -/
def demoTurns : List (ℕ × Turn) :=
  [(0, .begin), (0, .setup "/d".toList false []), (0, .read), (0, .read), (0, .read),
   (1, .begin), (1, .read), (1, .read), (0, .newPath .lc "T".toList (some "/l".toList) true []), (1, .read),
   (0, .newPath .sim "T".toList (some "/x".toList) true [])]

def demoStart : World := ⟨fresh.disk, fun _ => none⟩

theorem runs_turns (env : Env) (w : World) (log : List Entry) (h : Runs env w log) (ts : List (ℕ × Turn)) :
    Runs env (w.turns env ts).1 (log ++ (w.turns env ts).2) := by
  induction ts generalizing w log with
  | nil => simpa [World.turns] using h
  | cons t ts ih =>
    have := ih _ _ (h.next t.1 t.2)
    simpa [World.turns] using this

theorem demo_clean : ∀ e ∈ (demoStart.turns idEnv demoTurns).2, CleanEntryOf e := by
  have hl : (demoStart.turns idEnv demoTurns).2 = (demoTurns.zip
    [some .loaded, some (.rootSet "/d".toList), none, none, some .loaded, none, none, none,
      some (.registered "/l".toList), some .loaded, some (.registered "/x".toList)]).map
        (fun p => (p.1.1, p.1.2, p.2)) := by decide +kernel
  intro e he
  rw [hl] at he
  simp only [demoTurns, List.zip_cons_cons, List.zip_nil_left, List.map_cons, List.map_nil, List.mem_cons,
    List.not_mem_nil, or_false] at he
  rcases he with rfl | rfl | rfl | rfl | rfl | rfl | rfl | rfl | rfl | rfl | rfl <;>
    simp [CleanEntryOf, Clean, CleanRoot]

theorem C130_full_false : ¬ C130_full := by
  intro h
  have hr := runs_turns idEnv demoStart [] Runs.fresh demoTurns
  simp only [List.nil_append] at hr
  obtain ⟨s, hs⟩ : ∃ s, (demoStart.turns idEnv demoTurns).1.sess 1 = some s :=
    Option.isSome_iff_exists.1 (by decide +kernel)
  have htd : ((demoStart.turns idEnv demoTurns).1.sess 1).map (·.todo) = some [] := by decide +kernel
  have hmem : ((demoStart.turns idEnv demoTurns).1.sess 1).map (fun s => (s.mem .sim).get? "T".toList) =
      some none := by decide +kernel
  have hroot : ((demoStart.turns idEnv demoTurns).1.sess 1).map (·.root) = some (some "/d".toList) := by
    decide +kernel
  rw [hs] at htd hmem hroot
  simp only [Option.map_some, Option.some.injEq] at htd hmem hroot
  have := h idEnv _ _ hr demo_clean 1 s hs htd .sim "T".toList
  rw [hmem, hroot] at this
  revert this
  decide +kernel

/-- The hypotheses of `C130_unasked` are met after the first ten turns of the demonstration. -/
example :
    let w := (demoStart.turns idEnv (demoTurns.take 10)).1
    (w.sess 0).map (fun s => (s.todo, s.root, (s.mem .sim).get? "T".toList)) =
      some ([], some "/d".toList, none) ∧
    (w.sess 1).map (fun s => (s.todo, s.root, (s.mem .sim).get? "T".toList, (s.mem .lc).get? "T".toList)) =
      some ([], some "/d".toList, none, none) ∧
    (board (demoStart.turns idEnv (demoTurns.take 10)).2).reg.root = some "/d".toList := by decide +kernel

/-- Another session changes the root: the registration of the first goes to the old one. -/
example :
    let ts := demoTurns ++ [(1, .setup "/e".toList false ["y".toList]), (1, .read), (1, .read), (1, .read),
      (0, .newPath .sim "U".toList (some "/u".toList) true [])]
    let w := (demoStart.turns idEnv ts).1
    (board (demoStart.turns idEnv ts).2).reg.root = some "/e".toList ∧
    w.disk.files "/d".toList .sim = some "T /x\nU /u\n".toList ∧ w.disk.files "/e".toList .sim = none := by
  decide +kernel

end Verif.Paths
