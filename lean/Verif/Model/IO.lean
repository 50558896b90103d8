import Mathlib.Data.List.Sort
import Mathlib.Data.String.Basic
import Mathlib.Data.Real.Basic
import Verif.Py

/-!
# Model of bicycleparameters/io.py

Texts are lists of characters.  A file is its content after universal newline
translation.  Numbers are an arbitrary type `V` with Python's conversions to and
from text as parameters (`NumIO`).
-/

namespace BP

/-- Text: a list of characters, as in every line of io.py:10-200. -/
abbrev Text := List Char

/-- The characters `str.strip` removes.  Simplification: ASCII white space only. (io.py:63-72, 181-184) -/
def isWs (c : Char) : Bool :=
  c = ' ' || c = '\t' || c = '\n' || c = '\r' || c = '\x0b' || c = '\x0c'

/-- Python `s.strip()`. (io.py:63-72, 181-184) -/
def strip (s : Text) : Text := ((s.dropWhile isWs).reverse.dropWhile isWs).reverse

/-- Python `s.split(c)` for a one-character separator: never an empty list. (io.py:63-65, 184) -/
def splitOn (c : Char) : Text → List Text
  | [] => [[]]
  | x :: xs =>
    if x = c then [] :: splitOn c xs
    else match splitOn c xs with
      | [] => [[x]]
      | p :: ps => (x :: p) :: ps

/-- Iterating over an open text file: the lines with their terminators. (io.py:57-58) -/
def textLines : Text → List Text
  | [] => []
  | x :: xs =>
    if x = '\n' then ['\n'] :: textLines xs
    else match textLines xs with
      | [] => [[x]]
      | l :: ls => (x :: l) :: ls

/-- Number formatting and parsing of the Python runtime and the uncertainties
package: `str`, `ufloat_fromstr`, `float`, `np.mean`. (io.py:66-72, 159) -/
structure NumIO (V : Type) where
  str : V → Text
  parseU : Text → Except PyErr V
  parseF : Text → Except PyErr V
  mean : List V → V

/-- Does `s` contain the plus-minus sign (plus, slash, minus)? (io.py:67-70) -/
def hasPM (s : Text) : Bool := decide (['+', '/', '-'] <:+: s)

/-- io.py:60-72: the effect of one line on the dictionary. -/
def loadLine {V : Type} (io : NumIO V) (acc : Dict V) (line : Text) : Except PyErr (Dict V) :=
  if line.head? = some '#' then .ok acc
  else
    let equality := splitOn '=' ((splitOn '#' (strip line)).headD [])
    match equality[1]? with
    | none => .error .indexError
    | some rhs =>
      let valList := splitOn ',' (strip rhs)
      match valList.mapM (if hasPM rhs then io.parseU else io.parseF) with
      | .error e => .error e
      | .ok values => .ok (Dict.set acc (String.ofList (strip (equality.headD []))) (io.mean values))

/-- io.py:26-74, `load_parameter_text_file` on the content of the file. -/
def loadText {V : Type} (io : NumIO V) (content : Text) : Except PyErr (Dict V) :=
  (textLines content).foldlM (loadLine io) []

/-- io.py:159 and 214: the line written for one key. -/
def parLine {V : Type} (io : NumIO V) (d : Dict V) (k : String) : Text :=
  k.toList ++ " = ".toList ++ (match Dict.find? d k with | some v => io.str v | none => []) ++ ['\n']

/-- Python `sorted` on strings. (io.py:157) -/
def sortKeys (l : List String) : List String := l.insertionSort (· ≤ ·)

/-- io.py:157-159: the text written for a dictionary. -/
def writeText {V : Type} (io : NumIO V) (d : Dict V) : Text :=
  (sortKeys (Dict.keys d)).flatMap (parLine io d)

/-- io.py:146-149: keep asking until the answer is 'y' or 'n'.  `none`: the
answers given so far are neither. -/
def askYesNo : List String → Option Bool
  | [] => none
  | a :: rest => if a = "y" then some true else if a = "n" then some false else askYesNo rest

/-- io.py:142-165: the file (`none`: it does not exist) and the returned value
after the call; `none` while the user has not answered.  Answering 'n' leaves
the name `f` unbound, line 156 raises `UnboundLocalError` and False is returned.
Simplification: the directory part (lines 137-140) is not modelled. -/
def writeParameterFile {V : Type} (io : NumIO V) (file : Option Text) (answers : List String)
    (d : Dict V) : Option (Option Text × Bool) :=
  match file with
  | none => some (some (writeText io d), true)
  | some old =>
    match askYesNo answers with
    | none => none
    | some true => some (some (writeText io d), true)
    | some false => some (some old, false)

/-- io.py:202-217, `write_periods_to_file`: the new content of the file. -/
def writePeriods {V : Type} (io : NumIO V) (content : Text) (mp : Dict V) : Text :=
  let baseData := ((textLines content).filter fun l => l.head? ≠ some 'T').flatten
  let periodKeys := sortKeys ((Dict.keys mp).filter fun k => k.toList.head? = some 'T')
  baseData ++ periodKeys.flatMap (parLine io mp)

/-- [A-Z] (io.py:181) -/
def isUp (c : Char) : Bool := 'A' ≤ c && c ≤ 'Z'
/-- [a-z] (io.py:181) -/
def isLo (c : Char) : Bool := 'a' ≤ c && c ≤ 'z'

/-- io.py:181: does the zero-width pattern match between `prev` and `rest`? -/
def camelAt (prev : Option Char) (rest : Text) : Bool :=
  (match rest with
    | a :: b :: _ => isUp a && isLo b
    | _ => false) ||
  (match prev, rest with
    | some p, a :: _ => isLo p && isUp a
    | _, _ => false)

/-- io.py:181, `re.sub(pattern, ' ', s)` for the zero-width pattern. -/
def camelSub (prev : Option Char) : Text → Text
  | [] => []
  | a :: rest =>
    if camelAt prev (a :: rest) then ' ' :: a :: camelSub (some a) rest
    else a :: camelSub (some a) rest

/-- io.py:180-181, `space_out_camel_case(s)`. -/
def spaceOut (s : Text) : Text := strip (camelSub none s)

/-- io.py:182-184, `space_out_camel_case(s, output='list')`. -/
def spaceOutList (s : Text) : List Text := splitOn ' ' (spaceOut s)

/-- io.py:180-186: any other `output` raises. -/
def spaceOutCamelCase (s : Text) (output : String) : Except PyErr (Text ⊕ List Text) :=
  if output = "string" then .ok (.inl (spaceOut s))
  else if output = "list" then .ok (.inr (spaceOutList s))
  else .error .valueError

/-- `os.path.splitext(filename)[0]` for a name without directory separators: cut
at the last dot unless only dots precede it. (io.py:14) -/
def splitext (s : Text) : Text :=
  let parts := splitOn '.' s
  let root := (parts.dropLast.intersperse ['.']).flatten
  if parts.length ≤ 1 ∨ root.all (· = '.') then s else root

/-- io.py:14-23, `filename_to_dict`. -/
def filenameToDict (filename : Text) : Except PyErr (Dict Text) :=
  let o := spaceOutList (splitext filename)
  let last := o.getLastD []
  match last.getLast? with
  | none => .error .indexError
  | some trial =>
    let o := o.dropLast ++ [last.dropLast] ++ [[trial]]
    .ok (((["bicycle", "part", "pendulum", "angleOrder", "trial"].zip o)).foldl
      (fun acc kv => Dict.set acc kv.1 kv.2) [])

/-- A value of a parameter dictionary: a number with uncertainty, a plain number,
or a sequence. (io.py:102-117) -/
inductive PVal where
  | ufloat (nominal std : ℝ)
  | num (x : ℝ)
  | seq (l : List PVal)

/-- `x.nominal_value`; plain numbers and sequences have no such attribute. (io.py:102-117) -/
def PVal.nominal? : PVal → Option ℝ
  | .ufloat n _ => some n
  | _ => none

/-- io.py:106-115: one value.  A sequence with an entry that has no
`nominal_value` raises `AttributeError`, which line 113 does not catch. -/
def removeUncertainty : PVal → Except PyErr PVal
  | .ufloat n _ => .ok (.num n)
  | .num x => .ok (.num x)
  | .seq l =>
    match l.mapM fun x => x.nominal? with
    | some ns => .ok (.seq (ns.map .num))
    | none => .error .attributeError

/-- io.py:102-116. -/
def removeUncertainties (d : Dict PVal) : Except PyErr (Dict PVal) :=
  d.foldlM (fun acc kv =>
    match removeUncertainty kv.2 with
    | .error e => .error e
    | .ok v => .ok (Dict.set acc kv.1 v)) []

/-- io.py:83-99 on the imported dictionary.  `isStr` and `isEmptyArray` classify
the value of 'notes'; `emptyStr` is ''. -/
def cleanMatData {V : Type} (isStr isEmptyArray : V → Bool) (emptyStr : V) (d : Dict V) :
    Except PyErr (Dict V) :=
  match Dict.require d ["__globals__", "__header__", "__version__", "notes"] with
  | .error e => .error e
  | .ok () =>
    let d1 := Dict.erase (Dict.erase (Dict.erase d "__globals__") "__header__") "__version__"
    let notes := (Dict.find? d1 "notes").getD emptyStr
    let d2 := if !isStr notes && isEmptyArray notes then Dict.set d1 "notes" emptyStr else d1
    .ok (if Dict.has d2 "time" then Dict.erase (Dict.erase d2 "sampleRate") "duration" else d2)

end BP
