import Verif.Model.Paths
import Mathlib.Data.Nat.Notation

/-!
# Several sessions on one disk: `simim/_paths.py`

Every object `_SimIMPaths` reads the files when it is made and keeps what it read.  Here any number
of such objects, in one or several processes, take turns in any order; a turn lasts until the next
access to a file.
-/

namespace Verif.Paths

/-- An object `_SimIMPaths`: the root and the registries it holds (`_paths.py:38, 51-60`), the files
it still has to read, and whether it is still being made (lines 28-49). -/
structure Sess where
  root : Option Text
  mem : Kind → PyDict Text Text
  todo : List Kind := []
  born : Bool := true

/-- The disk and the sessions, by number. -/
structure World where
  disk : Disk
  sess : ℕ → Option Sess

/-- The turns of a session.  `begin`: the constructor up to reading the root file (lines 28-38);
`read`: `_load_paths` reads the next file (lines 58-60); `newPath`: a whole call of `_newsimpath` and
siblings, whose only access to a file is the final append (lines 115-152), put at the time of the
append; `setup`: `_setuppath` up to writing the root file (lines 62-103). -/
inductive Turn where
  | begin
  | read
  | newPath (k : Kind) (name : Text) (arg : Option Text) (checkoverwrite : Bool)
      (answers : List Text)
  | setup (root : Text) (confirmUser : Bool) (answers : List Text)
  deriving Repr, DecidableEq

/-- The order in which `_load_paths` reads, lines 58-60. -/
def readOrder : List Kind := [.lc, .sim, .prop]

/-- What is known of session `i` afterwards. -/
def World.put (w : World) (i : ℕ) (s : Option Sess) : World :=
  { w with sess := fun j => if j = i then s else w.sess j }

/-- The questions of `_setuppath`, lines 62-98: the root to be written, or what is reported
otherwise. -/
def askRoot (env : Env) (s : State) (root : Text) (confirmUser : Bool) (answers : List Text) :
    Except Outcome Text :=
  match chooseRoot s (env.expanduser root) answers with
  | none => .error .waiting
  | some (root, answers) =>
    if env.exist root then
      if confirmUser then
        match confirm answers with
        | .waiting => .error .waiting
        | .no _ => .error .kept
        | .yes _ => .ok (env.abspath root)
      else .ok (env.abspath root)
    else .error (.raised .nameError)

/-- One turn of session `i`; `none` reports nothing (the call goes on, or the turn is not possible
now). -/
def World.turn (env : Env) (w : World) (i : ℕ) : Turn → World × Option Outcome
  | .begin =>
    match loadRootFile w.disk.rootFile with
    | .error e => (w.put i none, some (.raised e))                              -- line 38
    | .ok none =>
      (w.put i (some { root := none, mem := fun _ => [] }), some .loaded)       -- lines 52-55
    | .ok (some r) =>
      (w.put i (some { root := some r, mem := fun _ => [], todo := readOrder, born := false }), none)
  | .read =>
    match w.sess i with
    | none => (w, none)
    | some s =>
      match s.root, s.todo with
      | some r, k :: rest =>
        match loadPathFile (w.disk.files r k) with
        | .error e =>
          -- no object if the constructor raises; otherwise what was read stays assigned
          (w.put i (if s.born then some { s with todo := [] } else none), some (.raised e))
        | .ok d =>
          (w.put i (some { s with mem := setMem s.mem k d, todo := rest, born := s.born || rest.isEmpty }),
            if rest = [] then some .loaded else none)
      | _, _ => (w, none)
  | .newPath k name arg co answers =>
    match w.sess i with
    | none => (w, none)
    | some s =>
      if s.todo = [] then
        let r := Paths.newPath env ⟨w.disk, s.root, s.mem⟩ k name arg co answers
        ({ w with disk := r.1.disk }.put i (some { s with mem := r.1.mem }), some r.2)
      else (w, none)
  | .setup root cu answers =>
    match w.sess i with
    | none => (w, none)
    | some s =>
      if s.todo = [] then
        match askRoot env ⟨w.disk, s.root, s.mem⟩ root cu answers with
        | .error o => (w, some o)
        | .ok r =>
          ({ w with disk := { w.disk with rootFile := some r } }.put i
            (some { s with root := some r, todo := readOrder }), some (.rootSet r))
      else (w, none)

/-- A turn and what it reported. -/
abbrev Entry := ℕ × Turn × Option Outcome

/-- The worlds that turns in any order lead to from a fresh installation, with the log of turns. -/
inductive Runs (env : Env) : World → List Entry → Prop where
  | fresh : Runs env ⟨Paths.fresh.disk, fun _ => none⟩ []
  | next {w : World} {log : List Entry} (h : Runs env w log) (i : ℕ) (t : Turn) :
      Runs env (w.turn env i t).1 (log ++ [(i, t, (w.turn env i t).2)])

/-- The given turns, one after the other. -/
def World.turns (env : Env) : World → List (ℕ × Turn) → World × List Entry
  | w, [] => (w, [])
  | w, (i, t) :: ts =>
    let r := w.turn env i t
    let rest := World.turns env r.1 ts
    (rest.1, (i, t, r.2) :: rest.2)

/-- A session begun on this disk, `_paths.py:28-49`. -/
def start (d : Disk) : State × Outcome := newSession ⟨d, none, fun _ => []⟩

/-- The disks that an interrupted call can leave: nothing written, or some of the text.  `open(…,'w')`
empties the root file first (line 101); `open(…,'a')` makes the registry file if there is none
(line 149). -/
inductive Torn (env : Env) (s : State) : Op → Disk → Prop where
  | before (op : Op) : Torn env s op s.disk
  | entry (k : Kind) (name : Text) (arg : Option Text) (co : Bool) (answers : List Text) (r p q : Text) :
      s.root = some r → (newPath env s k name arg co answers).2 = .registered p →
      q <+: Paths.entry name p →
      Torn env s (.newPath k name arg co answers)
        { s.disk with files := setFile s.disk.files r k (appendFile (s.disk.files r k) q) }
  | root (root : Text) (cu : Bool) (answers : List Text) (r q : Text) :
      askRoot env s root cu answers = .ok r → q <+: r →
      Torn env s (.setup root cu answers) { s.disk with rootFile := some q }

end Verif.Paths
