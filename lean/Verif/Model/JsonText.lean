import Verif.Model.PythonClasses
import Verif.Spec.IeeeNumpy
import Verif.Spec.Decimal
import Mathlib.Data.Nat.Digits.Defs

/-! The text of a dumped array, character by character: `json.dumps(data.tolist())` and
`np.array(json.loads(data), dtype=...)` of `/repo/src/interpn/serialization.py` 29-43, 60-74.

`json`, `float.__repr__` and `float(...)` belong to CPython, not to the repository.  They are modelled
after CPython's documented behaviour: `float.__repr__` is `PyOS_double_to_string(x, 'r', 0,
Py_DTSF_ADD_DOT_0)` with the shortest digits that read as the same float, `float(...)` is correctly
rounded, the scanner follows `json.scanner`/`json.decoder`.

Simplified: the only documents read are flat lists of numbers, as `json.dumps(data.tolist())` writes them
for a one-dimensional array; any other document gives `none`, whether Python raises or converts it
(nested lists, `null`, `true`, strings). -/

set_option autoImplicit false

namespace Interpn
namespace JsonText

/-! ### Writing -/

/-- The character of a decimal digit. -/
def digitChar (d : Nat) : Char := Char.ofNat (48 + d)

/-- The characters of a string of digits. -/
def digitsText (ds : List Nat) : List Char := ds.map digitChar

/-- Exponent of `float.__repr__`: sign and at least two digits. -/
def expText (e : Int) : List Char :=
  let ds := (Nat.digits 10 e.natAbs).reverse
  'e' :: (if e < 0 then '-' else '+') :: digitsText (List.replicate (2 - ds.length) 0 ++ ds)

/-- `float.__repr__` of the positive number `0.ds * 10^decpt` (CPython `format_float_short`, format
`'r'`: exponent notation if `decpt <= -4 || decpt > 16`; `.0` is added to whole numbers in the other
notation). -/
def reprPos (ds : List Nat) (decpt : Int) : List Char :=
  if -4 < decpt ∧ decpt ≤ 16 then
    if decpt ≤ 0 then '0' :: '.' :: digitsText (List.replicate (-decpt).toNat 0 ++ ds)
    else if decpt < ds.length then
      digitsText (ds.take decpt.toNat) ++ '.' :: digitsText (ds.drop decpt.toNat)
    else digitsText (ds ++ List.replicate (decpt.toNat - ds.length) 0) ++ ['.', '0']
  else
    digitsText (ds.take 1) ++ (if ds.length ≤ 1 then [] else '.' :: digitsText (ds.drop 1)) ++
      expText (decpt - 1)

/-- Choice of the digits of `float.__repr__` (CPython `_Py_dg_dtoa` in mode 0): shortest digits that read
as the float.  Where several strings of the same length do, CPython takes the closest; nothing here
depends on this. -/
structure Printer where
  digits : ℚ → List Nat
  decpt : ℚ → Int
  correct : ∀ q, Format.binary64.Representable q → 0 < q →
    IsShortest Format.binary64 q (digits q) (decpt q)

/-- The text `json.dumps` writes for a Python float (`float.__repr__`, or the three constants of
`json.encoder`). -/
def floatText (P : Printer) : F64 → List Char
  | .fin s q _ _ =>
    let body := if q = 0 then ['0', '.', '0'] else reprPos (P.digits |q|) (P.decpt |q|)
    if s then '-' :: body else body
  | .inf s =>
    if s then ['-', 'I', 'n', 'f', 'i', 'n', 'i', 't', 'y']
    else ['I', 'n', 'f', 'i', 'n', 'i', 't', 'y']
  | .nan => ['N', 'a', 'N']

/-- The elements after the first, with separators. -/
def dumpsTail (P : Printer) : List F64 → List Char
  | [] => [']']
  | x :: l => ',' :: ' ' :: (floatText P x ++ dumpsTail P l)

/-- `json.dumps` of a list of Python floats. -/
def dumps (P : Printer) : List F64 → List Char
  | [] => ['[', ']']
  | x :: l => '[' :: (floatText P x ++ dumpsTail P l)

/-! ### Reading -/

/-- The digit of a character. -/
def digitVal? (c : Char) : Option Nat :=
  if 48 ≤ c.toNat ∧ c.toNat ≤ 57 then some (c.toNat - 48) else none

/-- `[0-9]*` -/
def scanDigits : List Char → List Nat × List Char
  | [] => ([], [])
  | c :: cs =>
    match digitVal? c with
    | some d => (d :: (scanDigits cs).1, (scanDigits cs).2)
    | none => ([], c :: cs)

/-- `0|[1-9][0-9]*` -/
def scanInt : List Char → Option (List Nat × List Char)
  | [] => none
  | c :: cs =>
    match digitVal? c with
    | none => none
    | some 0 => some ([0], cs)
    | some d => some (d :: (scanDigits cs).1, (scanDigits cs).2)

/-- `(\.[0-9]+)?` -/
def scanFrac : List Char → List Nat × List Char
  | [] => ([], [])
  | c :: cs =>
    if c = '.' then
      match scanDigits cs with
      | ([], _) => ([], c :: cs)
      | (d :: ds, r) => (d :: ds, r)
    else ([], c :: cs)

/-- `[-+]?` -/
def scanSign : List Char → Bool × List Char
  | [] => (false, [])
  | c :: cs => if c = '-' then (true, cs) else if c = '+' then (false, cs) else (false, c :: cs)

/-- `([eE][-+]?[0-9]+)?` -/
def scanExp : List Char → Option Int × List Char
  | [] => (none, [])
  | c :: cs =>
    if c = 'e' ∨ c = 'E' then
      match scanDigits (scanSign cs).2 with
      | ([], _) => (none, c :: cs)
      | (d :: ds, r) =>
        (some (if (scanSign cs).1 then -(natOf (d :: ds) : Int) else natOf (d :: ds)), r)
    else (none, c :: cs)

/-- The number with these digits before and after the point and this exponent. -/
def numValue (int frac : List Nat) (exp : Int) : ℚ := natOf (int ++ frac) * 10 ^ (exp - frac.length)

/-- A scanned number as float64: `float(...)` for numbers with a fraction or an exponent (correctly
rounded, `-0.0` and infinity included), `int(...)` and the conversion by `np.array` for whole numbers
(`OverflowError` where too large, no negative zero). -/
def toFloat (neg : Bool) (int frac : List Nat) (exp : Option Int) : Option F64 :=
  match frac, exp with
  | [], none =>
    match Ieee.rnd Format.binary64 false (if neg then -(natOf int : ℚ) else natOf int) with
    | .fin s q hr hs => some (.fin s q hr hs)
    | _ => none
  | _, _ =>
    let v := numValue int frac (exp.getD 0)
    some (Ieee.rnd Format.binary64 neg (if neg then -v else v))

/-- A number after its sign. -/
def scanNumber (neg : Bool) (cs : List Char) : Option (F64 × List Char) :=
  match scanInt cs with
  | none => none
  | some (int, r) =>
    (toFloat neg int (scanFrac r).1 (scanExp (scanFrac r).2).1).map
      fun x => (x, (scanExp (scanFrac r).2).2)

/-- `dropPrefix? p cs`: the rest of `cs` after `p`. -/
def dropPrefix? : List Char → List Char → Option (List Char)
  | [], cs => some cs
  | _ :: _, [] => none
  | p :: ps, c :: cs => if p = c then dropPrefix? ps cs else none

/-- `scan_once` of a number or one of the constants. -/
def scanValue (cs : List Char) : Option (F64 × List Char) :=
  match dropPrefix? ['N', 'a', 'N'] cs with
  | some r => some (.nan, r)
  | none =>
    match dropPrefix? ['I', 'n', 'f', 'i', 'n', 'i', 't', 'y'] cs with
    | some r => some (.inf false, r)
    | none =>
      match dropPrefix? ['-', 'I', 'n', 'f', 'i', 'n', 'i', 't', 'y'] cs with
      | some r => some (.inf true, r)
      | none =>
        match dropPrefix? ['-'] cs with
        | some r => scanNumber true r
        | none => scanNumber false cs

/-- Whitespace of JSON. -/
def isSpace (c : Char) : Bool := c = ' ' || c = '\t' || c = '\n' || c = '\r'

def skipSpace (cs : List Char) : List Char := cs.dropWhile isSpace

/-- Elements of an array up to the closing bracket.  `fuel` bounds the number of elements; the length of
the text is enough. -/
def scanElems : Nat → List Char → Option (List F64 × List Char)
  | 0, _ => none
  | fuel + 1, cs =>
    match scanValue cs with
    | none => none
    | some (x, r) =>
      match skipSpace r with
      | ']' :: r' => some ([x], r')
      | ',' :: r' => (scanElems fuel (skipSpace r')).map fun p => (x :: p.1, p.2)
      | _ => none

/-- The array: opening bracket, elements, closing bracket. -/
def scanArray (cs : List Char) : Option (List F64 × List Char) :=
  match cs with
  | '[' :: r =>
    match skipSpace r with
    | ']' :: r' => some ([], r')
    | r' => scanElems r'.length r'
  | _ => none

/-- `json.loads` of a list of numbers, then `np.array(..., dtype=np.float64)`. -/
def loads (cs : List Char) : Option (List F64) :=
  match scanArray (skipSpace cs) with
  | none => none
  | some (l, r) => if skipSpace r = [] then some l else none

/-- Text of the arrays of a dumped interpolator. -/
def json (P : Printer) : Json F64 :=
  { dumps := fun l => String.ofList (dumps P l), loads := fun s => loads s.toList }

end JsonText
end Interpn
