import Mathlib.Data.Nat.Notation
import Mathlib.Data.List.Basic

/-!
# Model of the raw data files of a simulation: downloading, finding and deleting them
(`simim/siminterface/universemachine.py:190-200`, `235`, `279`, `290-292`, `384-414`;
`simim/siminterface/uchuu.py:176-188`, `229`, `243-246`, `332-377`;
`simim/siminterface/illustris.py:337-397`; `simim/siminterface/_rawsiminterface.py:265-290`, `319-340`, `576-580`)

Paths are lists of characters.  The disk says for each path whether there is a file, and whether it is complete.
Writing a file takes two steps: it is created (or emptied), and it is complete; a crash, an error of the network or an
interruption by the user stops after any number of steps.  Folders are not modelled.  `os.path.join(a, b)` is
`a ++ "/" ++ b` (the path of a simulation is absolute and does not end in a slash).
-/

namespace Verif.Raw

/-- A path or a piece of text. -/
abbrev Path := List Char

/-- The content of a file: incomplete, or all that was sent. -/
inductive File where
  | part
  | whole
  deriving DecidableEq

/-- The files on the disk. -/
abbrev Disk := Path → Option File

/-- A step of writing a file. -/
inductive Step where
  | start (f : Path)
  | finish (f : Path)
  deriving DecidableEq

/-- The file that is written. -/
def Step.file : Step → Path
  | .start f => f
  | .finish f => f

/-- The disk after a step. -/
def Step.apply (d : Disk) : Step → Disk
  | .start f => fun g => if g = f then some .part else d g
  | .finish f => fun g => if g = f then some .whole else d g

/-- The disk after some steps. -/
def after (d : Disk) (steps : List Step) : Disk := steps.foldl Step.apply d

/-- `urlretrieve(url, f)` and `shutil.copy(source, f)`: the file is opened for writing, which empties it, and then
filled. -/
def fetch (f : Path) : List Step := [.start f, .finish f]

/-- `os.path.join(path, 'raw', name)`. -/
def rawFile (dir name : Path) : Path := dir ++ "/raw/".toList ++ name

/-! ## UniverseMachine -/

/-- `UniversemachineCatalogs.download`, `universemachine.py:394-414`; `name` is `web_files`. -/
def umDownload (dir : Path) (name : ℕ → Path) (snaps : List ℕ) (redownload : Bool) (d : Disk) : List Step :=
  let todo := if redownload then snaps else snaps.filter (fun s => (d (rawFile dir (name s))).isNone)
  todo.flatMap (fun s => fetch (rawFile dir (name s)))

/-! ## Uchuu -/

/-- `str.replace(pat, rep)` for a non-empty `pat`; the first argument is the number of characters to be left out. -/
def replaceFrom (pat rep : Path) : ℕ → Path → Path
  | _, [] => []
  | k + 1, _ :: cs => replaceFrom pat rep k cs
  | 0, c :: cs =>
    if pat.isPrefixOf (c :: cs) then rep ++ replaceFrom pat rep (pat.length - 1) cs
    else c :: replaceFrom pat rep 0 cs

/-- `text.replace('data1', f'data{df}')`. -/
def withData (df : ℕ) (text : Path) : Path :=
  replaceFrom "data1".toList ("data".toList ++ (toString df).toList) 0 text

/-- Where data file `df` is looked for when formatting (`uchuu.py:229`) and when the catalogue is opened (line 182). -/
def uchuuFile (dir name : Path) (df : ℕ) : Path := rawFile dir (withData df name)

/-- Where data file `df` is stored when it is downloaded, `uchuu.py:377`, and looked for before, line 361: the
replacement is made in the whole path. -/
def uchuuTarget (dir name : Path) (df : ℕ) : Path := withData df (rawFile dir name)

/-- The data files to be downloaded, `uchuu.py:353-366`. -/
def uchuuTodo (dir : Path) (name : ℕ → Path) (snaps dfs : List ℕ) (redownload : Bool) (d : Disk) :
    List (ℕ × List ℕ) :=
  if redownload then snaps.map (fun s => (s, dfs))
  else
    (snaps.map (fun s => (s, dfs.filter (fun df => (d (uchuuTarget dir (name s) df)).isNone)))).filter
      (fun p => decide (0 < p.2.length))

/-- `UM_UchuuCatalogs.download`, `uchuu.py:353-377`. -/
def uchuuDownload (dir : Path) (name : ℕ → Path) (snaps : List ℕ) (dfs : List ℕ) (redownload : Bool) (d : Disk) :
    List Step :=
  (uchuuTodo dir name snaps dfs redownload d).flatMap (fun p =>
    p.2.flatMap (fun df => fetch (uchuuTarget dir (name p.1) df)))

/-! ## Illustris -/

/-- `'{:03d}'.format(n)`. -/
def three (n : ℕ) : Path :=
  let s := (toString n).toList
  List.replicate (3 - s.length) '0' ++ s

/-- The folder of a snapshot, `illustris.py:339`, `353`. -/
def illFolder (dir : Path) (s : ℕ) : Path := rawFile dir ("groups_".toList ++ three s)

/-- File `j` of a snapshot, lines 354 and 387; `pre` is `raw_fname`. -/
def illFile (dir pre : Path) (s j : ℕ) : Path :=
  illFolder dir s ++ "/".toList ++ pre ++ three s ++ ".".toList ++ (toString j).toList ++ ".hdf5".toList

/-- One run of wget, line 378: it brings some files, completely or not; `-nc`: files that are there are not touched. -/
def wget (dir pre : Path) (s : ℕ) : List (ℕ × File) → Disk → List Step
  | [], _ => []
  | (j, c) :: rest, d =>
    let f := illFile dir pre s j
    let here : List Step := if (d f).isSome then []
      else match c with
        | .part => [.start f]
        | .whole => fetch f
    here ++ wget dir pre s rest (after d here)

/-- The check after a run, lines 382-389: without metadata there is none. -/
def arrived (dir pre : Path) (s : ℕ) (files : Option ℕ) (d : Disk) : Bool :=
  match files with
  | none => true
  | some n => (List.range n).all (fun j => (d (illFile dir pre s j)).isSome)

/-- Lines 376-393 for one snapshot: wget runs until the check succeeds; `runs` says what each run brings, and when it
is used up the loop was interrupted (line 394: whatever the reason, the next snapshot follows). -/
def illOne (dir pre : Path) (s : ℕ) (files : Option ℕ) : List (List (ℕ × File)) → Disk → List Step
  | [], _ => []
  | r :: rest, d =>
    let here := wget dir pre s r d
    if arrived dir pre s files (after d here) then here
    else here ++ illOne dir pre s files rest (after d here)

/-- Lines 360-397 for the snapshots to be downloaded. -/
def illAll (dir pre : Path) (files : Option ℕ) (runs : ℕ → List (List (ℕ × File))) : List ℕ → Disk → List Step
  | [], _ => []
  | s :: rest, d =>
    let here := illOne dir pre s files (runs s) d
    here ++ illAll dir pre files runs rest (after d here)

/-- `IllustrisCatalogs.download`, `illustris.py:347-397`: a snapshot is left out if its first file exists. -/
def illDownload (dir pre : Path) (files : Option ℕ) (runs : ℕ → List (List (ℕ × File))) (snaps : List ℕ)
    (redownload : Bool) (d : Disk) : List Step :=
  let todo := if redownload then snaps else snaps.filter (fun s => (d (illFile dir pre s 0)).isNone)
  illAll dir pre files runs todo d

/-! ## Deleting -/

/-- Characters that stand for themselves in a command of the shell; the others (quotes, `$`, `*`, `;`, ...) are not
modelled, except for the space. -/
def plainChar (c : Char) : Bool := c.isAlphanum || c == '/' || c == '.' || c == '_' || c == '-'

/-- The words of a command, separated by spaces; `w` is the word that is being read. -/
def wordsFrom (w : Path) : Path → List Path
  | [] => if w = [] then [] else [w]
  | c :: cs => if c = ' ' then (if w = [] then wordsFrom [] cs else w :: wordsFrom [] cs) else wordsFrom (w ++ [c]) cs

/-- A relative path starts from the working directory. -/
def resolve (cwd w : Path) : Path := if w.head? = some '/' then w else cwd ++ "/".toList ++ w

/-- The file `f` is `w` or lies in the folder `w`. -/
def under (w f : Path) : Bool := w.isPrefixOf f && (f.drop w.length == [] || (f.drop w.length).head? == some '/')

/-- `rm -r` with some arguments. -/
def rm (cwd : Path) (ws : List Path) (d : Disk) : Disk :=
  fun f => if ws.any (fun w => under (resolve cwd w) f) then none else d f

/-- `os.system("rm -r {}".format(path))`, `_rawsiminterface.py:340`, `580`. -/
def rmCommand (cwd path : Path) (d : Disk) : Disk := rm cwd (wordsFrom [] path) d

/-- The prompt, `_rawsiminterface.py:329-336`: `some true` = go on, `some false` = abort, `none` = still waiting. -/
def prompt : List String → Option Bool
  | [] => none
  | a :: rest => if a = "y" then some true else if a = "n" then some false else prompt rest

/-- `SimCatalogs.clean_raw`, `_rawsiminterface.py:319-340`. -/
def cleanRaw (cwd dir : Path) (answers : List String) (d : Disk) : Disk :=
  match prompt answers with
  | some true => rmCommand cwd (dir ++ "/raw".toList) d
  | _ => d

/-- The raw files of a snapshot: `universemachine.py:292`, `uchuu.py:245`, `illustris.py:339`. -/
def umSnapFiles (name : ℕ → Path) (s : ℕ) : List Path := [name s]

def uchuuSnapFiles (name : ℕ → Path) (s : ℕ) : List Path :=
  (List.range 11).map (fun i => withData (i + 1) (name s))

def illSnapFiles (s : ℕ) : List Path := ["groups_".toList ++ three s]

/-- The deletion after a snapshot is formatted, `_rawsiminterface.py:576-580`. -/
def cleanSnap (cwd dir : Path) (files : List Path) (d : Disk) : Disk :=
  files.foldl (fun d f => rmCommand cwd (rawFile dir f) d) d

end Verif.Raw
