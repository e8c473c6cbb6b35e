import Verif.Model.JsonText

/-! The whole document of a dumped interpolator: `model_dump_json` and `model_validate_json` of the six
classes `/repo/src/interpn/{multilinear,nearest,multicubic}_{regular,rectilinear}.py`.  Only the fields
are written: `dims`, `starts`, `steps`, `vals` or `grids`, `vals`, and `linearize_extrapolation` of the
cubic classes; the class itself is not.

JSON and pydantic belong to libraries, not to the repository.  They are modelled after their documented
behaviour: compact output in the order of the fields, `extra="forbid"`, all fields required, the
discriminator `dtype` required.

Simplified: a document that uses other parts of JSON (escapes in strings, `null`, numbers with fraction or
exponent outside of the strings) is an error here, though pydantic accepts some of them (`2.0` for an
`int`, a list instead of a string for `data`).  Of repeated keys the last counts. -/

set_option autoImplicit false

namespace Interpn
namespace JsonDoc
open JsonText

/-- The JSON values of which the documents consist. -/
inductive Value where
  | str (s : List Char)
  | int (z : Int)
  | bool (b : Bool)
  | arr (l : List Value)
  | obj (fields : List (List Char × Value))

/-! ### Writing -/

/-- A string without characters that must be escaped. -/
def strText (s : List Char) : List Char := '"' :: (s ++ ['"'])

/-- Decimal digits of a whole number. -/
def natText (n : Nat) : List Char :=
  if n = 0 then ['0'] else digitsText (Nat.digits 10 n).reverse

def intText (z : Int) : List Char := if z < 0 then '-' :: natText z.natAbs else natText z.natAbs

def boolText : Bool → List Char
  | true => ['t', 'r', 'u', 'e']
  | false => ['f', 'a', 'l', 's', 'e']

mutual

/-- The compact text of a value. -/
def text : Value → List Char
  | .str s => strText s
  | .int z => intText z
  | .bool b => boolText b
  | .arr l => '[' :: elemsText l
  | .obj fs => '{' :: fieldsText fs

/-- The elements of an array with the closing bracket. -/
def elemsText : List Value → List Char
  | [] => [']']
  | [v] => text v ++ [']']
  | v :: w :: l => text v ++ ',' :: elemsText (w :: l)

/-- The fields of an object with the closing brace. -/
def fieldsText : List (List Char × Value) → List Char
  | [] => ['}']
  | [(k, v)] => strText k ++ ':' :: (text v ++ ['}'])
  | (k, v) :: f :: l => strText k ++ ':' :: (text v ++ ',' :: fieldsText (f :: l))

end

/-- `ArrayF64`, `ArrayF32`: `/repo/src/interpn/serialization.py` 18-24, 46-55. -/
def arrDoc (a : ArrJson) : Value :=
  .obj [("data".toList, .str a.data.toList), ("dtype".toList, .str a.dtype.toList)]

/-- The field of the cubic classes: `multicubic_regular.py` 50, `multicubic_rectilinear.py` 47. -/
def linField : ClassKind → List (List Char × Value)
  | .multicubic b => [("linearize_extrapolation".toList, .bool b)]
  | _ => []

/-- The fields on a regular grid in their order: `multilinear_regular.py` 35-38, `nearest_regular.py`
34-37, `multicubic_regular.py` 46-50. -/
def regularDoc (j : RegularJson) : Value :=
  .obj ([("dims".toList, .arr (j.dims.map .int)), ("starts".toList, arrDoc j.starts),
    ("steps".toList, arrDoc j.steps), ("vals".toList, arrDoc j.vals)] ++ linField j.kind)

/-- The fields on a rectilinear grid in their order: `multilinear_rectilinear.py` 34-35,
`nearest_rectilinear.py` 33-34, `multicubic_rectilinear.py` 45-47. -/
def rectilinearDoc (j : RectilinearJson) : Value :=
  .obj ([("grids".toList, .arr (j.grids.map arrDoc)), ("vals".toList, arrDoc j.vals)] ++
    linField j.kind)

/-- `model_dump_json` of an interpolator on a regular grid. -/
def dumpRegular (P : Printer) (m : RegularObj F32 F64) : List Char :=
  text (regularDoc (m.dump ieeeNumpy (json P)))

/-- `model_dump_json` of an interpolator on a rectilinear grid. -/
def dumpRectilinear (P : Printer) (m : RectilinearObj F32 F64) : List Char :=
  text (rectilinearDoc (m.dump ieeeNumpy (json P)))

/-! ### Reading -/

/-- A string after its opening quote. -/
def parseStr : List Char → Option (List Char × List Char)
  | [] => none
  | c :: r =>
    if c = '"' then some ([], r)
    else if c = '\\' ∨ c.toNat < 32 then none
    else (parseStr r).map fun p => (c :: p.1, p.2)

/-- A whole number after its sign; a fraction or an exponent is an error. -/
def parseNat (cs : List Char) : Option (Nat × List Char) :=
  match scanInt cs with
  | none => none
  | some (ds, r) =>
    match r with
    | [] => some (natOf ds, [])
    | c :: t => if c = '.' ∨ c = 'e' ∨ c = 'E' then none else some (natOf ds, c :: t)

def parseInt (cs : List Char) : Option (Int × List Char) :=
  match dropPrefix? ['-'] cs with
  | some r => (parseNat r).map fun p => (-(p.1 : Int), p.2)
  | none => (parseNat cs).map fun p => ((p.1 : Int), p.2)

/-- A value that is neither string nor array nor object. -/
def parseAtom (cs : List Char) : Option (Value × List Char) :=
  match dropPrefix? (boolText true) cs with
  | some r => some (.bool true, r)
  | none =>
    match dropPrefix? (boolText false) cs with
    | some r => some (.bool false, r)
    | none => (parseInt cs).map fun p => (.int p.1, p.2)

mutual

/-- A value; `fuel` bounds the nesting and the number of parts, the length of the text is enough. -/
def parseValue : Nat → List Char → Option (Value × List Char)
  | 0, _ => none
  | _ + 1, [] => none
  | fuel + 1, c :: r =>
    if c = '"' then (parseStr r).map fun p => (.str p.1, p.2)
    else if c = '[' then
      match skipSpace r with
      | ']' :: r' => some (.arr [], r')
      | r' => (parseElems fuel r').map fun p => (.arr p.1, p.2)
    else if c = '{' then
      match skipSpace r with
      | '}' :: r' => some (.obj [], r')
      | r' => (parseFields fuel r').map fun p => (.obj p.1, p.2)
    else parseAtom (c :: r)

/-- Elements of an array up to the closing bracket. -/
def parseElems : Nat → List Char → Option (List Value × List Char)
  | 0, _ => none
  | fuel + 1, cs =>
    match parseValue fuel cs with
    | none => none
    | some (v, r) =>
      match skipSpace r with
      | ']' :: r' => some ([v], r')
      | ',' :: r' => (parseElems fuel (skipSpace r')).map fun p => (v :: p.1, p.2)
      | _ => none

/-- Fields of an object up to the closing brace. -/
def parseFields : Nat → List Char → Option (List (List Char × Value) × List Char)
  | 0, _ => none
  | fuel + 1, cs =>
    match cs with
    | '"' :: r =>
      match parseStr r with
      | none => none
      | some (k, r) =>
        match skipSpace r with
        | ':' :: r =>
          match parseValue fuel (skipSpace r) with
          | none => none
          | some (v, r) =>
            match skipSpace r with
            | '}' :: r' => some ([(k, v)], r')
            | ',' :: r' => (parseFields fuel (skipSpace r')).map fun p => ((k, v) :: p.1, p.2)
            | _ => none
        | _ => none
    | _ => none

end

/-- A document: one value, white space around it. -/
def parse (cs : List Char) : Option Value :=
  match parseValue (cs.length + 1) (skipSpace cs) with
  | none => none
  | some (v, r) => if skipSpace r = [] then some v else none

/-! ### Validation -/

/-- The class on which `model_validate_json` is called. -/
inductive ClassName where
  | multilinear | nearest | multicubic
  deriving DecidableEq

/-- The class of an object. -/
def className : ClassKind → ClassName
  | .multilinear => .multilinear
  | .nearest => .nearest
  | .multicubic _ => .multicubic

/-- The value of a field. -/
def field? (k : List Char) : List (List Char × Value) → Option Value
  | [] => none
  | (k', v) :: fs =>
    match field? k fs with
    | some u => some u
    | none => if k' = k then some v else none

/-- `dims: list[int]` -/
def asInts : Value → Option (List Int)
  | .arr l => l.mapM fun v => match v with | .int z => some z | _ => none
  | _ => none

/-- `Array`: `serialization.py` 18-77, the conversion of `data` left to `ArrJson.load`. -/
def asArr : Value → Option ArrJson
  | .obj fs =>
    if fs.all fun f => f.1 = "data".toList || f.1 = "dtype".toList then
      match field? "data".toList fs, field? "dtype".toList fs with
      | some (.str d), some (.str t) => some ⟨String.ofList d, String.ofList t⟩
      | _, _ => none
    else none
  | _ => none

/-- `list[Array]` -/
def asArrs : Value → Option (List ArrJson)
  | .arr l => l.mapM asArr
  | _ => none

/-- `linearize_extrapolation: bool` where the class has it. -/
def asKind (cls : ClassName) (fs : List (List Char × Value)) : Option ClassKind :=
  match cls with
  | .multilinear => some .multilinear
  | .nearest => some .nearest
  | .multicubic =>
    match field? "linearize_extrapolation".toList fs with
    | some (.bool b) => some (.multicubic b)
    | _ => none

/-- Whether a field belongs to the class (`extra="forbid"`). -/
def allowed (cls : ClassName) (names : List (List Char)) (k : List Char) : Bool :=
  names.contains k || (cls = .multicubic && k = "linearize_extrapolation".toList)

def regularNames : List (List Char) :=
  ["dims".toList, "starts".toList, "steps".toList, "vals".toList]

def rectilinearNames : List (List Char) := ["grids".toList, "vals".toList]

/-- The fields of a class on a regular grid. -/
def asRegular (cls : ClassName) : Value → Option RegularJson
  | .obj fs =>
    if fs.all fun f => allowed cls regularNames f.1 then do
      let dims ← (field? "dims".toList fs).bind asInts
      let starts ← (field? "starts".toList fs).bind asArr
      let steps ← (field? "steps".toList fs).bind asArr
      let vals ← (field? "vals".toList fs).bind asArr
      let kind ← asKind cls fs
      return { kind, dims, starts, steps, vals }
    else none
  | _ => none

/-- The fields of a class on a rectilinear grid. -/
def asRectilinear (cls : ClassName) : Value → Option RectilinearJson
  | .obj fs =>
    if fs.all fun f => allowed cls rectilinearNames f.1 then do
      let grids ← (field? "grids".toList fs).bind asArrs
      let vals ← (field? "vals".toList fs).bind asArr
      let kind ← asKind cls fs
      return { kind, grids, vals }
    else none
  | _ => none

/-- Reading of the arrays (`loads`); nothing is written. -/
def reader : Json F64 := { dumps := fun _ => "", loads := fun s => loads s.toList }

/-- `model_validate_json` of a class on a regular grid. -/
def loadRegular (cls : ClassName) (cs : List Char) : Except PyExc (RegularObj F32 F64) :=
  match (parse cs).bind (asRegular cls) with
  | some j => j.load ieeeNumpy reader
  | none => .error (.validationError "")

/-- `model_validate_json` of a class on a rectilinear grid. -/
def loadRectilinear (cls : ClassName) (cs : List Char) : Except PyExc (RectilinearObj F32 F64) :=
  match (parse cs).bind (asRectilinear cls) with
  | some j => j.load ieeeNumpy reader
  | none => .error (.validationError "")

end JsonDoc
end Interpn
