import Verif.Model.JsonDoc
import Mathlib.Data.List.Forall2

/-! Texts of the same JSON document: white space between the tokens and the order of the fields are free. -/

set_option autoImplicit false

namespace Interpn
namespace JsonDoc
open JsonText

/-- White space of JSON. -/
def Spaces (w : List Char) : Prop := ∀ c ∈ w, c = ' ' ∨ c = '\t' ∨ c = '\n' ∨ c = '\r'

/-- Characters that stand for themselves in a JSON string. -/
def Unescaped (s : List Char) : Prop := ∀ c ∈ s, c ≠ '"' ∧ c ≠ '\\' ∧ 32 ≤ c.toNat

/-- `cs` is the decimal text of a whole number: digits without leading zeros, after a minus sign if the
number is negative. -/
def IntText (z : Int) (cs : List Char) : Prop :=
  ∃ ds : List Nat, (∀ d ∈ ds, d < 10) ∧ ds ≠ [] ∧ (ds.head? = some 0 → ds = [0]) ∧
    natOf ds = z.natAbs ∧
    cs = (if z < 0 then ['-'] else []) ++ ds.map fun d => "0123456789".toList.getD d ' '

mutual

/-- `cs` is a text of the value, with any white space between the tokens. -/
inductive Writes : Value → List Char → Prop where
  | str (s : List Char) : Unescaped s → Writes (.str s) ('"' :: (s ++ ['"']))
  | int (z : Int) (cs : List Char) : IntText z cs → Writes (.int z) cs
  | tt : Writes (.bool true) "true".toList
  | ff : Writes (.bool false) "false".toList
  | arrNil (w : List Char) : Spaces w → Writes (.arr []) ('[' :: (w ++ [']']))
  | arr (l : List Value) (w cs : List Char) : Spaces w → WritesElems l cs →
      Writes (.arr l) ('[' :: (w ++ cs))
  | objNil (w : List Char) : Spaces w → Writes (.obj []) ('{' :: (w ++ ['}']))
  | obj (fs : List (List Char × Value)) (w cs : List Char) : Spaces w → WritesFields fs cs →
      Writes (.obj fs) ('{' :: (w ++ cs))

/-- Elements of an array with the closing bracket. -/
inductive WritesElems : List Value → List Char → Prop where
  | last (v : Value) (cs w : List Char) : Writes v cs → Spaces w →
      WritesElems [v] (cs ++ (w ++ [']']))
  | cons (v : Value) (l : List Value) (cs w w' ds : List Char) : Writes v cs → Spaces w → Spaces w' →
      WritesElems l ds → WritesElems (v :: l) (cs ++ (w ++ ',' :: (w' ++ ds)))

/-- Fields of an object with the closing brace. -/
inductive WritesFields : List (List Char × Value) → List Char → Prop where
  | last (k : List Char) (v : Value) (w w' cs w'' : List Char) : Unescaped k → Spaces w → Spaces w' →
      Writes v cs → Spaces w'' →
      WritesFields [(k, v)] ('"' :: (k ++ '"' :: (w ++ ':' :: (w' ++ (cs ++ (w'' ++ ['}']))))))
  | cons (k : List Char) (v : Value) (fs : List (List Char × Value)) (w w' cs w'' u ds : List Char) :
      Unescaped k → Spaces w → Spaces w' → Writes v cs → Spaces w'' → Spaces u → WritesFields fs ds →
      WritesFields ((k, v) :: fs)
        ('"' :: (k ++ '"' :: (w ++ ':' :: (w' ++ (cs ++ (w'' ++ ',' :: (u ++ ds)))))))

end

/-- The same value with the fields of its objects in another order. -/
inductive Reordered : Value → Value → Prop where
  | refl (v : Value) : Reordered v v
  | arr (l l' : List Value) : List.Forall₂ Reordered l l' → Reordered (.arr l) (.arr l')
  | obj (ks : List (List Char)) (vs vs' : List Value) (fs' : List (List Char × Value)) :
      ks.length = vs.length → List.Forall₂ Reordered vs vs' → (ks.zip vs').Perm fs' →
      Reordered (.obj (ks.zip vs)) (.obj fs')

/-- `cs` is a text of the document `v`: in any order of the fields, with any white space. -/
def IsText (v : Value) (cs : List Char) : Prop :=
  ∃ v' w body w', Reordered v v' ∧ Spaces w ∧ Writes v' body ∧ Spaces w' ∧ cs = w ++ (body ++ w')

end JsonDoc
end Interpn
