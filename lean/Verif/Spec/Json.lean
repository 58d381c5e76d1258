import Verif.Spec.TextConv

/-!
# Reading JSON documents
-/

namespace PptRs.Spec

open PptRs

/-- A JSON value; numbers are natural numbers only. -/
inductive Json where
  | null
  | bool (b : Bool)
  | num (n : Nat)
  | str (s : Str)
  | arr (l : List Json)
  | obj (l : List (Str × Json))

/-- White space between the tokens. -/
def isJsonSpace (c : Char) : Bool := c = ' ' || c = '\n' || c = '\r' || c = '\t'

/-- The text after white space. -/
def skipJson : Str → Str
  | c :: r => if isJsonSpace c then skipJson r else c :: r
  | [] => []

/-- A string after its opening quote, and the rest after its closing quote. -/
def jsonText : Str → Option (Str × Str)
  | '"' :: r => some ([], r)
  | '\\' :: 'u' :: a :: b :: c :: d :: r =>
    (jsonUnicode a b c d).bind fun x => (jsonText r).map fun p => (x :: p.1, p.2)
  | '\\' :: e :: r => (jsonEscape e).bind fun x => (jsonText r).map fun p => (x :: p.1, p.2)
  | c :: r => if c = '\\' ∨ c.toNat < 32 then none else (jsonText r).map fun p => (c :: p.1, p.2)
  | [] => none

/-- A literal or a number without sign, fraction and leading zeros, and the rest. -/
def jsonScalar (s : Str) : Option (Json × Str) :=
  match s with
  | 'n' :: 'u' :: 'l' :: 'l' :: r => some (.null, r)
  | 't' :: 'r' :: 'u' :: 'e' :: r => some (.bool true, r)
  | 'f' :: 'a' :: 'l' :: 's' :: 'e' :: r => some (.bool false, r)
  | '0' :: r => some (.num 0, r)
  | _ =>
    if s.takeWhile Char.isDigit = [] then none
    else some (.num (Nat.ofDigitChars 10 (s.takeWhile Char.isDigit) 0), s.dropWhile Char.isDigit)

mutual
/-- A value and the rest; the number bounds the depth of the recursion. -/
def jsonValue : Nat → Str → Option (Json × Str)
  | 0, _ => none
  | n + 1, s =>
    match skipJson s with
    | '"' :: r => (jsonText r).map fun p => (.str p.1, p.2)
    | '[' :: r =>
      match skipJson r with
      | ']' :: r => some (.arr [], r)
      | _ => (jsonElems n r).map fun p => (.arr p.1, p.2)
    | '{' :: r =>
      match skipJson r with
      | '}' :: r => some (.obj [], r)
      | _ => (jsonMembers n r).map fun p => (.obj p.1, p.2)
    | s => jsonScalar s
/-- The elements of an array, at least one, up to its end. -/
def jsonElems : Nat → Str → Option (List Json × Str)
  | 0, _ => none
  | n + 1, s =>
    (jsonValue n s).bind fun p =>
      match skipJson p.2 with
      | ',' :: r => (jsonElems n r).map fun q => (p.1 :: q.1, q.2)
      | ']' :: r => some ([p.1], r)
      | _ => none
/-- The members of an object, at least one, up to its end. -/
def jsonMembers : Nat → Str → Option (List (Str × Json) × Str)
  | 0, _ => none
  | n + 1, s =>
    match skipJson s with
    | '"' :: r =>
      (jsonText r).bind fun k =>
        match skipJson k.2 with
        | ':' :: r =>
          (jsonValue n r).bind fun p =>
            match skipJson p.2 with
            | ',' :: r => (jsonMembers n r).map fun q => ((k.1, p.1) :: q.1, q.2)
            | '}' :: r => some ([(k.1, p.1)], r)
            | _ => none
        | _ => none
    | _ => none
end

/-- A JSON document: one value and white space. -/
def jsonDocument (s : Str) : Option Json :=
  (jsonValue (2 * s.length + 2) s).bind fun p => if skipJson p.2 = [] then some p.1 else none

end PptRs.Spec
