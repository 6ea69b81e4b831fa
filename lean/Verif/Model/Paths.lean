import Verif.Model.PyDict

/-!
# Model of `simim/_paths.py`

Text is a list of characters.  The operating system calls `os.path.exists`,
`os.path.abspath`, `os.path.join`, `os.path.expanduser` are parameters (`Env`).
`os.mkdir` is assumed to succeed and its effect on `exists` is not tracked
(`Env.exists` is universally quantified in the theorems).
-/

namespace Verif.Paths

abbrev Text := List Char

/-- The three registries: `simpaths.txt`, `lcpaths.txt`, `proppaths.txt`
(`_paths.py:41-43`). -/
inductive Kind where
  | sim | lc | prop
  deriving DecidableEq, Repr

/-- Python exceptions raised by `_paths.py`. -/
inductive Err where
  | indexError   -- `line_split[1]` or `readlines()[0]` on a too short list
  | valueError   -- "A data directory for SimIM has not been specified"
  | nameError    -- "Specified path not found"
  deriving DecidableEq, Repr

/-- Operating system functions used by `_paths.py`. -/
structure Env where
  exist : Text → Bool
  abspath : Text → Text
  expanduser : Text → Text
  /-- `os.path.join(root, ext, name)` for the extension of each registry,
  `_paths.py:142,181,220`. -/
  autoPath : Kind → Text → Text → Text

/-- Universal-newline translation done by `open(path)` in text mode (the way
`_paths.py:11` and `:19` open files): `\r\n` and `\r` become `\n`. -/
def universalNewlines : Text → Text
  | [] => []
  | '\r' :: '\n' :: rest => '\n' :: universalNewlines rest
  | c :: rest => (if c = '\r' then '\n' else c) :: universalNewlines rest

/-- Lines of a text, without their final `\n`; `cur` is the current line, reversed.
A last line without `\n` counts if it is not empty. -/
def linesAux (cur : Text) : Text → List Text
  | [] => if cur = [] then [] else [cur.reverse]
  | c :: rest =>
    if c = '\n' then cur.reverse :: linesAux [] rest else linesAux (c :: cur) rest

/-- `[line.replace('\n','') for line in file.readlines()]`, `_paths.py:12,20-21`, on
translated text. -/
def lines (t : Text) : List Text := linesAux [] t

/-- `s.split(' ')`: always a non-empty list. -/
def splitSp : Text → List Text
  | [] => [[]]
  | c :: rest =>
    if c = ' ' then [] :: splitSp rest
    else match splitSp rest with
      | [] => [[c]]            -- not reachable: `splitSp` is never empty
      | w :: ws => (c :: w) :: ws

/-- Body of the loop in `_checkload_path_file`, `_paths.py:20-22`. -/
def loadLine (d : PyDict Text Text) (line : Text) : Except Err (PyDict Text Text) :=
  match splitSp line with
  | name :: path :: _ => .ok (d.set name path)
  | _ => .error .indexError

/-- The loop of `_checkload_path_file`, `_paths.py:20-22`. -/
def loadLines : PyDict Text Text → List Text → Except Err (PyDict Text Text)
  | d, [] => .ok d
  | d, l :: ls =>
    match loadLine d l with
    | .error e => .error e
    | .ok d' => loadLines d' ls

/-- `_checkload_path_file`, `_paths.py:15-23`. `none` is a missing file. -/
def loadPathFile : Option Text → Except Err (PyDict Text Text)
  | none => .ok []
  | some txt => loadLines [] (lines (universalNewlines txt))

/-- `_checkload_root_file`, `_paths.py:7-13`. -/
def loadRootFile : Option Text → Except Err (Option Text)
  | none => .ok none
  | some txt =>
    match lines (universalNewlines txt) with
    | [] => .error .indexError
    | l :: _ => .ok (some l)

/-- Disk content relevant to `_paths.py`: the root file and, for every root
directory, its three registry files. -/
structure Disk where
  rootFile : Option Text
  files : Text → Kind → Option Text

/-- One `_SimIMPaths` object together with the disk. -/
structure State where
  disk : Disk
  root : Option Text
  mem : Kind → PyDict Text Text

/-- What a call reports. `registered p`: a path was registered; `kept`: the user
declined; `waiting`: still prompting (the answers ran out); `raised e`. -/
inductive Outcome where
  | registered (path : Text)
  | rootSet (path : Text)
  | loaded
  | kept
  | waiting
  | raised (e : Err)
  deriving DecidableEq, Repr

/-- Outcome of a prompt loop. -/
inductive Answer where
  | yes (rest : List Text)
  | no (rest : List Text)
  | waiting
  deriving DecidableEq, Repr

/-- The prompt loops `answer = input(..); while answer != 'y': if answer == 'n': ..`,
`_paths.py:73-81, 91-98, 127-134` and siblings. -/
def confirm : List Text → Answer
  | [] => .waiting
  | a :: as =>
    if a = ['y'] then .yes as else if a = ['n'] then .no as else confirm as

/-- `'{} {}\n'.format(sim,new_path)`, `_paths.py:150,189,228`. -/
def entry (name path : Text) : Text := name ++ ' ' :: path ++ ['\n']

/-- `open(.., 'a').write(line)`: append, creating the file if needed. -/
def appendFile (f : Option Text) (t : Text) : Option Text :=
  some (f.getD [] ++ t)

def setFile (files : Text → Kind → Option Text) (r : Text) (k : Kind) (t : Option Text) :
    Text → Kind → Option Text :=
  fun r' k' => if r' = r ∧ k' = k then t else files r' k'

def setMem (mem : Kind → PyDict Text Text) (k : Kind) (d : PyDict Text Text) :
    Kind → PyDict Text Text :=
  fun k' => if k' = k then d else mem k'

/-- Write the entry to disk and memory: `_paths.py:148-152`, `:187-191`, `:226-230`. -/
def store (s : State) (r : Text) (k : Kind) (name path : Text) : State :=
  { s with
    disk := { s.disk with
      files := setFile s.disk.files r k (appendFile (s.disk.files r k) (entry name path)) }
    mem := setMem s.mem k ((s.mem k).set name path) }

/-- The part of `_newsimpath` after the overwrite question, `_paths.py:136-152`
(`:175-191`, `:214-230`).  `arg = none` is `new_path=None`. -/
def newPathTail (env : Env) (s : State) (r : Text) (k : Kind) (name : Text)
    (arg : Option Text) (answers : List Text) : State × Outcome :=
  let finish (p : Text) : State × Outcome :=
    (store s r k name (env.abspath p), .registered (env.abspath p))
  if arg = none ∨ arg = some [] then
    match answers with
    | [] => (s, .waiting)
    | p :: _ => if env.exist p then finish p else (s, .raised .nameError)
  else if arg = some ['a', 'u', 't', 'o'] then finish (env.autoPath k r name)
  else finish (arg.getD [])   -- here `arg` is `some p`

/-- `_newsimpath` / `_newlcpath` / `_newproppath`, `_paths.py:115-152, 154-191, 193-230`
(three copies of one function, differing in the registry only). -/
def newPath (env : Env) (s : State) (k : Kind) (name : Text) (arg : Option Text)
    (checkoverwrite : Bool) (answers : List Text) : State × Outcome :=
  match s.root with
  | none => (s, .raised .valueError)
  | some r =>
    if checkoverwrite && (s.mem k).has name then
      match confirm answers with
      | .waiting => (s, .waiting)
      | .no _ => (s, .kept)
      | .yes rest => newPathTail env s r k name arg rest
    else newPathTail env s r k name arg answers

/-- `_load_paths`, `_paths.py:51-60`.  The three files are read in the order lcs, sims,
props; what was read before an exception stays assigned. -/
def loadPaths (s : State) : State × Outcome :=
  match s.root with
  | none => ({ s with mem := fun _ => [] }, .loaded)
  | some r =>
    match loadPathFile (s.disk.files r .lc) with
    | .error e => (s, .raised e)
    | .ok l =>
      let s := { s with mem := setMem s.mem .lc l }
      match loadPathFile (s.disk.files r .sim) with
      | .error e => (s, .raised e)
      | .ok m =>
        let s := { s with mem := setMem s.mem .sim m }
        match loadPathFile (s.disk.files r .prop) with
        | .error e => (s, .raised e)
        | .ok p => ({ s with mem := setMem s.mem .prop p }, .loaded)

/-- A new session: `_SimIMPaths.__init__`, `_paths.py:28-49`.  (If the constructor raises,
Python has no new object; the state returned then is not used by any theorem.) -/
def newSession (s : State) : State × Outcome :=
  match loadRootFile s.disk.rootFile with
  | .error e => (s, .raised e)
  | .ok root => loadPaths { s with root := root }

/-- Which root to use and which answers are left, `_paths.py:68-81`
(`none`: still prompting). -/
def chooseRoot (s : State) (root : Text) (answers : List Text) : Option (Text × List Text) :=
  match s.root with
  | none => some (root, answers)
  | some old =>
    if root = old then some (root, answers)
    else match confirm answers with
      | .waiting => none
      | .no rest => some (old, rest)
      | .yes rest => some (root, rest)

/-- Write the root file and reload, `_paths.py:100-113` (the `mkdir`s are omitted). -/
def commitRoot (s : State) (root : Text) : State × Outcome :=
  let r := loadPaths
    { s with disk := { s.disk with rootFile := some root }, root := some root }
  (r.1, if r.2 = .loaded then .rootSet root else r.2)

/-- `_setuppath`, `_paths.py:62-113`. -/
def setupPath (env : Env) (s : State) (root : Text) (confirmUser : Bool)
    (answers : List Text) : State × Outcome :=
  match chooseRoot s (env.expanduser root) answers with
  | none => (s, .waiting)
  | some (root, answers) =>
    if env.exist root then
      if confirmUser then
        match confirm answers with
        | .waiting => (s, .waiting)
        | .no _ => (s, .kept)
        | .yes _ => commitRoot s (env.abspath root)
      else commitRoot s (env.abspath root)
    else (s, .raised .nameError)

/-- API calls. -/
inductive Op where
  | newPath (k : Kind) (name : Text) (arg : Option Text) (checkoverwrite : Bool)
      (answers : List Text)
  | setup (root : Text) (confirmUser : Bool) (answers : List Text)
  | newSession
  deriving Repr

def step (env : Env) (s : State) : Op → State × Outcome
  | .newPath k name arg co answers => newPath env s k name arg co answers
  | .setup root cu answers => setupPath env s root cu answers
  | .newSession => newSession s

/-- Run a list of calls, collecting what each reported. -/
def run (env : Env) : State → List Op → State × List (Op × Outcome)
  | s, [] => (s, [])
  | s, op :: ops =>
    let r := step env s op
    let rest := run env r.1 ops
    (rest.1, (op, r.2) :: rest.2)

/-- A fresh installation: no files, no root. -/
def fresh : State :=
  { disk := { rootFile := none, files := fun _ _ => none }, root := none, mem := fun _ => [] }

end Verif.Paths
