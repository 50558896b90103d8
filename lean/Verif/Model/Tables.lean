import Mathlib.Algebra.Order.Floor.Ring
import Mathlib.Data.Rat.Floor
import Mathlib.Data.Nat.Digits.Defs
import Mathlib.Data.List.Sort
import Verif.Model.IO

/-!
# tables.py

Tables of the parameters of several bicycles.  Text is a list of characters, numbers are
rational: every finite float is one.  nan and infinities are not modelled, neither is the
negative zero (the text "-0.00" is modelled as "0.00").
-/

namespace BP

/-! ## Python's decimal formatting -/

/-- The rounding of '%.nf' and `round`: to the nearest integer, ties to even. (tables.py:239-250) -/
def roundHalfEven (x : ℚ) : ℤ :=
  if x - ⌊x⌋ < 1 / 2 then ⌊x⌋
  else if 1 / 2 < x - ⌊x⌋ then ⌊x⌋ + 1
  else if ⌊x⌋ % 2 = 0 then ⌊x⌋ else ⌊x⌋ + 1

/-- `|x|` in units of the `d`-th decimal. (tables.py:239-250) -/
def roundDec (x : ℚ) (d : ℕ) : ℕ := (roundHalfEven (|x| * 10 ^ d)).toNat

/-- Python `round(x, d)`.  Simplification: exact, the code gets the float next to it. (tables.py:247, 249) -/
def roundQ (x : ℚ) (d : ℕ) : ℚ := (if x < 0 then -1 else 1) * (roundDec x d / 10 ^ d)

/-- The character of a decimal digit. (tables.py:239-250) -/
def digitChar (n : ℕ) : Char := Char.ofNat (48 + n)

/-- The decimal digits of `n`, the last one first, at least `d + 1` of them. (tables.py:239-250) -/
def paddedDigits (n d : ℕ) : List ℕ :=
  Nat.digits 10 n ++ List.replicate (d + 1 - (Nat.digits 10 n).length) 0

/-- Python `'%.df' % x`. (tables.py:239-250) -/
def fixed (x : ℚ) (d : ℕ) : Text :=
  let digits := paddedDigits (roundDec x d) d
  (if x < 0 ∧ roundDec x d ≠ 0 then ['-'] else []) ++
    ((digits.drop d).reverse.map digitChar ++ '.' :: (digits.take d).reverse.map digitChar)

/-! ## uround -/

/-- A parameter value: a plain number, of which only `str(value)` is used, or a number with
a standard deviation (a ufloat), and its `str`. (tables.py:205-252) -/
inductive Val where
  | plain (s : Text)
  | uncertain (nom sd : ℚ) (s : Text)

/-- `str(value)` (tables.py:59, 232) -/
def Val.str : Val → Text
  | .plain s => s
  | .uncertain _ _ s => s

/-- The separator of value and uncertainty: plus, slash, minus. (tables.py:57) -/
def pm : Text := ['+', '/', '-']

/-- tables.py:236-255 for a nominal value that does not count as zero.  If no character of
the formatted uncertainty is a digit other than 0, the name `digit` is unbound (line 247);
if the first character is one, the format of line 248 is '%.-1f', a ValueError. -/
def uroundUncertain (nom uncert : ℚ) : Except PyErr Text :=
  let s := fixed uncert 14
  match s.findIdx? fun c => ¬(c = '0' ∨ c = '.') with
  | none => .error .unboundLocal
  | some 0 => .error .valueError
  | some (d + 1) =>
    let newUncert := roundQ uncert d
    let newUncertStr := fixed newUncert d
    let newNom := roundQ nom (newUncertStr.length - 2)
    let newNomStr := fixed newNom d
    let diff := newUncertStr.length - newNomStr.length
    .ok (newNomStr ++ List.replicate diff '0' ++ pm ++ newUncertStr)

/-- tables.py:205-256. -/
def uround : Val → Except PyErr Text
  | .plain s => .ok s
  | .uncertain nom sd _ =>
    if |nom| < 1 / 10 ^ 15 then .ok ['0', '.', '0', '+', '/', '-', '0', '.', '0']
    else uroundUncertain nom sd

/-! ## to_latex -/

/-- tables.py:166-185. -/
def latexMap : Dict Text :=
  [("f", ['f']), ("w", ['w']), ("gamma", ['\\', 'g', 'a', 'm', 'm', 'a']), ("g", ['g']),
   ("lcs", ['l', '_', '{', 'c', 's', '}']), ("hbb", ['h', '_', '{', 'b', 'b', '}']),
   ("lsp", ['l', '_', '{', 's', 'p', '}']), ("lst", ['l', '_', '{', 's', 't', '}']),
   ("lamst", ['\\', 'l', 'a', 'm', 'b', 'd', 'a', '_', '{', 's', 't', '}']),
   ("whb", ['w', '_', '{', 'h', 'b', '}']), ("LhbF", ['l', '_', '{', 'h', 'b', 'F', '}']),
   ("LhbR", ['l', '_', '{', 'h', 'b', 'R', '}']), ("d", ['d']), ("l", ['l']), ("c", ['c']),
   ("lam", ['\\', 'l', 'a', 'm', 'b', 'd', 'a']), ("xcl", ['x', '_', '{', 'c', 'l', '}']),
   ("zcl", ['z', '_', '{', 'c', 'l', '}']), ("ds1", ['d', '_', '{', 's', '1', '}']),
   ("ds3", ['d', '_', '{', 's', '3', '}'])]

/-- `var[-2:]` (tables.py:151-202) -/
def lastTwo (l : Text) : Text := l.drop (l.length - 2)

/-- tables.py:186-202.  `var[1]` of line 194 is an IndexError for the name "T". -/
def toLatex (var : String) : Except PyErr Text :=
  match Dict.find? latexMap var with
  | some l => .ok l
  | none =>
    let v := var.toList
    if ['a', 'l', 'p', 'h', 'a'].isPrefixOf v then
      .ok (['\\', 'a', 'l', 'p', 'h', 'a', '_', '{'] ++ lastTwo v ++ ['}'])
    else if ['a'].isPrefixOf v ∧ v.length = 3 then .ok (['a', '_', '{'] ++ lastTwo v ++ ['}'])
    else if ['T'].isPrefixOf v then
      match v[1]? with
      | none => .error .indexError
      | some c => .ok (['T', '^', c, '_', '{'] ++ lastTwo v ++ ['}'])
    else if v.length = 2 then .ok (v.take 1 ++ ['_'] ++ v.drop 1)
    else if ['I'].isPrefixOf v then .ok (v.take 1 ++ ['_', '{'] ++ v.drop 1 ++ ['}'])
    else .error (.keyError var)

/-! ## The table -/

/-- What a table uses of a Bicycle object. (tables.py:8-66) -/
structure TBike where
  name : Text
  parameters : Dict (Dict Val)

/-- tables.py:33-36: all keys, with repetitions; an absent set is a KeyError.
Not modelled: lines 37-38, taken when `bicycles` is a single Bicycle (they read
`self.bicycle`, which does not exist). -/
def allKeys (source : String) : List TBike → Except PyErr (List String)
  | [] => .ok []
  | b :: bs =>
    match Dict.find? b.parameters source with
    | none => .error (.keyError source)
    | some p =>
      match allKeys source bs with
      | .error e => .error e
      | .ok ks => .ok (Dict.keys p ++ ks)

/-- `x.lower()` for ASCII names. (tables.py:41) -/
def lower (s : String) : String := String.ofList (s.toList.map Char.toLower)

/-- tables.py:40-41.  `enum` lists the elements of a Python set: the order depends on the
hash seed of the process. -/
def variableList (enum : List String → List String) (keys : List String) : List String :=
  (enum keys).insertionSort fun a b => lower a ≤ lower b

/-- Python `s.split` at every plus, slash, minus. (tables.py:57) -/
def splitPM : Text → List Text
  | '+' :: '/' :: '-' :: r => [] :: splitPM r
  | c :: r => match splitPM r with
    | [] => [[c]]
    | h :: t => (c :: h) :: t
  | [] => [[]]

/-- tables.py:56-64: the two cells of a bicycle.  ValueError (also from the unpacking) gives
`str(value)` and NA, KeyError gives NA and NA, other exceptions leave the method. -/
def tableCells (source : String) (var : String) (b : TBike) : Except PyErr (List Text) :=
  match (Dict.find? b.parameters source).bind fun p => Dict.find? p var with
  | none => .ok [['N', 'A'], ['N', 'A']]
  | some v =>
    match uround v with
    | .error .valueError => .ok [v.str, ['N', 'A']]
    | .error e => .error e
    | .ok s =>
      match splitPM s with
      | [val, sig] => .ok [val, sig]
      | _ => .ok [v.str, ['N', 'A']]

/-- tables.py:46-64: one row. -/
def tableRow (source : String) (latex : Bool) (bikes : List TBike) (var : String) :
    Except PyErr (List Text) :=
  match (if latex then toLatex var else .ok var.toList) with
  | .error e => .error e
  | .ok name =>
    match bikes.mapM (tableCells source var) with
    | .error e => .error e
    | .ok cells => .ok (name :: cells.flatten)

/-- The attributes of a Table object. (tables.py:8-29) -/
structure Table where
  latex : Bool
  bikes : List TBike
  allVariables : List String
  tableData : List (List Text)

/-- tables.py:8-66, the constructor. -/
def makeTable (enum : List String → List String) (source : String) (latex : Bool)
    (bikes : List TBike) : Except PyErr Table :=
  match allKeys source bikes with
  | .error e => .error e
  | .ok keys =>
    let vars := variableList enum keys
    match vars.mapM (tableRow source latex bikes) with
    | .error e => .error e
    | .ok data => .ok ⟨latex, bikes, vars, data⟩

/-! ## create_rst_table -/

/-- ':math:`' + s + '`' (tables.py:68-148) -/
def mathRole (s : Text) : Text := [':', 'm', 'a', 't', 'h', ':', '`'] ++ s ++ ['`']

/-- tables.py:87-89. -/
def mathNames (table : List (List Text)) : List (List Text) :=
  table.map fun row => match row with
    | [] => []
    | n :: r => mathRole n :: r

/-- tables.py:92-97: the sub header. -/
def subHeader (latex : Bool) (bikes : List TBike) : List Text :=
  ['V', 'a', 'r', 'i', 'a', 'b', 'l', 'e'] :: bikes.flatMap fun _ =>
    if latex then [mathRole ['v'], mathRole ['\\', 's', 'i', 'g', 'm', 'a']]
    else [['v'], ['s', 'i', 'g', 'm', 'a']]

/-- tables.py:100-103. -/
def initialWidths (bikes : List TBike) : List ℕ :=
  0 :: bikes.flatMap fun b => [(b.name.length + 1) / 2, (b.name.length + 1) / 2]

/-- tables.py:105-108. -/
def widen : List ℕ → List Text → List ℕ
  | [], _ => []
  | l, [] => l
  | w :: ws, s :: ss => (if w < s.length then s.length else w) :: widen ws ss

/-- tables.py:111-114, 116. -/
def rstTop (largest : List ℕ) (bikes : List TBike) : Text :=
  '+' :: List.replicate (largest.getD 0 0 + 2) '-' ++
    ((List.range bikes.length).flatMap fun i =>
      '+' :: List.replicate (largest.getD (2 * i + 1) 0 + largest.getD (2 * i + 2) 0 + 5) '-') ++ ['+']

/-- tables.py:116-121. -/
def rstNames (largest : List ℕ) (bikes : List TBike) : Text :=
  '|' :: List.replicate (largest.getD 0 0 + 2) ' ' ++
    (bikes.zipIdx.flatMap fun bi =>
      ['|', ' '] ++ bi.1.name ++ List.replicate
        (largest.getD (2 * bi.2 + 1) 0 + largest.getD (2 * bi.2 + 2) 0 + 4 - bi.1.name.length) ' ') ++ ['|']

/-- tables.py:129-133. -/
def rstRule (largest : List ℕ) (dash : Char) (n : ℕ) : Text :=
  ((List.range n).flatMap fun i => '+' :: List.replicate (largest.getD i 0 + 2) dash) ++ ['+']

/-- tables.py:133-135. -/
def rstRow (largest : List ℕ) (row : List Text) : Text :=
  '|' :: row.zipIdx.flatMap fun si =>
    ' ' :: si.1 ++ List.replicate (largest.getD si.2 0 - si.1.length) ' ' ++ [' ', '|']

/-- tables.py:124-127. -/
def rstDash (j : ℕ) : Char := if j = 0 then '=' else '-'

/-- tables.py:99-141: the text for the rows with the sub header.  The last rule uses the dash
of the last row. -/
def rstText (bikes : List TBike) (table : List (List Text)) : Text :=
  let largest := table.foldl widen (initialWidths bikes)
  rstTop largest bikes ++ ['\n'] ++ rstNames largest bikes ++ ['\n'] ++
    (table.zipIdx.flatMap fun rj =>
      rstRule largest (rstDash rj.2) rj.1.length ++ ['\n'] ++ rstRow largest rj.1 ++ ['\n']) ++
    (largest.flatMap fun n => '+' :: List.replicate (n + 2) (rstDash (table.length - 1))) ++ ['+']

/-- tables.py:68-148: the returned text and the object after the call.  `table` is the list
`self.tableData` itself, so both edits stay.  Not modelled: writing the file (143-146). -/
def createRst (t : Table) : Text × Table :=
  let data := if t.latex then mathNames t.tableData else t.tableData
  let data := subHeader t.latex t.bikes :: data
  (rstText t.bikes data, { t with tableData := data })

end BP
