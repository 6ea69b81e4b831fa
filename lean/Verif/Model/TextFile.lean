import Verif.Model.Loaders

/-!
# Model of reading text catalogues of UniverseMachine, character by character
(`simim/siminterface/universemachine.py:205-240`)

The text is split into lines, comments are removed, lines are split at white space and the words are
converted to numbers, as `np.loadtxt` does with the default arguments used in line 235.

Simplifications: the characters are those of ASCII (white space of other alphabets is left out). How a
floating point number is read from a word is a parameter, as is what is done with a word for an integer that is not a
sequence of digits (numpy has changed this).  Integers are 32 bits wide (`'i'`).
-/

namespace Verif.Load

open Verif.Sim (Err)

/-- A number of a text catalogue. -/
inductive TVal (F : Type) where
  | int (z : ℤ)
  | float (x : F)
  deriving DecidableEq

/-- `dtype_raw`, `universemachine.py:230-234`; `true` for `'i'`, `false` for `'f'`. -/
def dtypeText : List (Name × Bool) :=
  [("id", true), ("descid", true), ("upid", true), ("flags", true), ("uparent_dist", false),
   ("x", false), ("y", false), ("z", false), ("vx", false), ("vy", false), ("vz", false),
   ("m", false), ("v", false), ("mp", false), ("vmp", false), ("r", false),
   ("rank1", false), ("rank2", false), ("ra", false), ("rarank", false),
   ("sm", false), ("icl", false), ("sfr", false), ("obs_sm", false), ("obs_sfr", false),
   ("obs_ssfr", false), ("smhm", false), ("obs_uv", false)]

/-- Split at the characters with a property. -/
def cutAt (p : Char → Bool) : List Char → List (List Char)
  | [] => [[]]
  | c :: cs =>
    if p c then [] :: cutAt p cs
    else
      match cutAt p cs with
      | [] => [[c]]
      | w :: ws => (c :: w) :: ws

/-- The ends of lines; the empty line between the two characters of `"\r\n"` is skipped like all
empty lines. -/
def isEnd (c : Char) : Bool := c = '\n' || c = '\r'

/-- White space within a line. -/
def isBlank (c : Char) : Bool := c = ' ' || c = '\t' || c = '\x0b' || c = '\x0c'

/-- Remove a comment, `comments='#'` in line 235. -/
def uncomment (l : List Char) : List Char := l.takeWhile (fun c => c ≠ '#')

/-- The words of a line. -/
def wordsOf (l : List Char) : List (List Char) :=
  (cutAt isBlank (uncomment l)).filter (fun w => !w.isEmpty)

/-- The lines of the text that have words, as words (`np.loadtxt`, line 235). -/
def textRows (text : List Char) : List (List (List Char)) :=
  ((cutAt isEnd text).map wordsOf).filter (fun r => !r.isEmpty)

/-- The value of a sequence of digits; `none` if there is another character, or none at all. -/
def digitsVal : ℕ → List Char → Option ℕ
  | n, [] => some n
  | n, c :: cs => if '0' ≤ c ∧ c ≤ '9' then digitsVal (10 * n + (c.toNat - 48)) cs else none

/-- An integer as text: a sign or none, and digits. -/
def textInt : List Char → Option ℤ
  | [] => none
  | ['-'] => none
  | ['+'] => none
  | '-' :: cs => (digitsVal 0 cs).map (fun n : ℕ => -(n : ℤ))
  | '+' :: cs => (digitsVal 0 cs).map (fun n : ℕ => (n : ℤ))
  | cs => (digitsVal 0 cs).map (fun n : ℕ => (n : ℤ))

variable {F : Type}

/-- Read a word as a number of the type of the column; integers must have 32 bits. -/
def readWord (pf : List Char → Option F) (other : List Char → Option ℤ) (int : Bool) (w : List Char) :
    Except Err (TVal F) :=
  if int then
    match textInt w with
    | some z => if -(2 ^ 31) ≤ z ∧ z < 2 ^ 31 then .ok (.int z) else .error .valueError
    | none =>
      match other w with
      | some z => .ok (.int z)
      | none => .error .valueError
  else
    match pf w with
    | some x => .ok (.float x)
    | none => .error .valueError

/-- Read a line: the number of words must be that of the columns (`np.loadtxt`, line 235). -/
def readRow (pf : List Char → Option F) (other : List Char → Option ℤ) (ws : List (List Char)) :
    Except Err (PyDict Name (TVal F)) :=
  if ws.length ≠ dtypeText.length then .error .valueError
  else mapE (fun p =>
    match readWord pf other p.1.2 p.2 with
    | .error e => .error e
    | .ok v => .ok (p.1.1, v)) (dtypeText.zip ws)

/-- `data_raw[key]`, line 238. -/
def textColumn (rows : List (PyDict Name (TVal F))) (key : Name) : List (TVal F) :=
  rows.filterMap (fun r => r.get? key)

/-- `_ascii_loader`, `universemachine.py:205-240`, on the text of a file.  `np.loadtxt` removes
dimensions of length one: with exactly one halo the array has no dimension, and `len` raises (line 239). -/
def textFile (pf : List Char → Option F) (other : List Char → Option ℤ) (text : List Char)
    (fields : List Name) : Except Err (PyDict Name (List (TVal F)) × ℕ) :=
  match mapE (readRow pf other) (textRows text) with
  | .error e => .error e
  | .ok rows =>
    if fields.any (fun f => !(dtypeText.map (fun t => t.1)).contains f) then .error .valueError
    else if rows.length = 1 then .error .typeError
    else .ok (fields.foldl (fun d k => d.set k (textColumn rows k)) [], rows.length)

end Verif.Load
