import Verif.Model.Str

/-!
# Specification: a reader for the XML that decks are made of

Independent of the writer model. `readText` is the character-data rule of XML 1.0 restricted
to the five predefined entities; `Reader` is a one-character-at-a-time reader for elements,
attributes and text.
-/

namespace PptRs.Spec

open PptRs

/-- Decodes character data: plain characters stand for themselves, `&` must start one of the
five predefined entities, and `<` is not allowed. -/
def readText : Str → Option Str
  | [] => some []
  | '&' :: 'a' :: 'm' :: 'p' :: ';' :: r => (readText r).map ('&' :: ·)
  | '&' :: 'l' :: 't' :: ';' :: r => (readText r).map ('<' :: ·)
  | '&' :: 'g' :: 't' :: ';' :: r => (readText r).map ('>' :: ·)
  | '&' :: 'q' :: 'u' :: 'o' :: 't' :: ';' :: r => (readText r).map ('"' :: ·)
  | '&' :: 'a' :: 'p' :: 'o' :: 's' :: ';' :: r => (readText r).map ('\'' :: ·)
  | c :: r => if c = '&' ∨ c = '<' then none else (readText r).map (c :: ·)

/-- Parsed XML. -/
inductive Node where
  | elem (name : Str) (attrs : List (Str × Str)) (kids : List Node)
  | text (s : Str)

/-- An element whose end tag has not been seen: name, attributes and the children so far. -/
structure Frame where
  name : Str
  attrs : List (Str × Str)
  kids : List Node

/-- Where the reader is inside the current construct. -/
inductive Mode where
  /-- between tags, raw text collected so far -/
  | text (raw : Str)
  /-- just after `<` -/
  | lt
  /-- in a start tag's name -/
  | name (n : Str)
  /-- in an end tag's name -/
  | close (n : Str)
  /-- in an attribute name -/
  | attr (n : Str) (as : List (Str × Str)) (k : Str)
  /-- after `=`, a quote must follow -/
  | eq (n : Str) (as : List (Str × Str)) (k : Str)
  /-- in a quoted attribute value -/
  | val (n : Str) (as : List (Str × Str)) (k v : Str)
  /-- after a closing quote -/
  | tag (n : Str) (as : List (Str × Str))
  /-- after `/` in a start tag -/
  | slash (n : Str) (as : List (Str × Str))

/-- Reader state: open elements, innermost first, above a root frame. -/
structure Reader where
  top : Frame
  stack : List Frame
  mode : Mode

/-- Adds a child to a frame. -/
def Frame.push (f : Frame) (n : Node) : Frame := { f with kids := f.kids ++ [n] }

/-- Ends a run of raw text: adds a text node unless the run is empty. -/
def flush (f : Frame) (raw : Str) : Option Frame :=
  if raw = [] then some f else (readText raw).map fun t => f.push (.text t)

/-- Reads one character. -/
def step (r : Reader) (c : Char) : Option Reader :=
  match r.mode with
  | .text raw =>
    if c = '<' then (flush r.top raw).map fun f => { r with top := f, mode := .lt }
    else some { r with mode := .text (raw ++ [c]) }
  | .lt =>
    if c = '/' then some { r with mode := .close [] }
    else if c = '>' ∨ c = ' ' ∨ c = '<' then none
    else some { r with mode := .name [c] }
  | .name n =>
    if c = ' ' then some { r with mode := .attr n [] [] }
    else if c = '>' then
      some { top := ⟨n, [], []⟩, stack := r.top :: r.stack, mode := .text [] }
    else if c = '/' then some { r with mode := .slash n [] }
    else some { r with mode := .name (n ++ [c]) }
  | .close n =>
    if c = '>' then
      match r.stack with
      | [] => none
      | p :: ps =>
        if r.top.name = n then
          some { top := p.push (.elem r.top.name r.top.attrs r.top.kids), stack := ps, mode := .text [] }
        else none
    else some { r with mode := .close (n ++ [c]) }
  | .attr n as k =>
    if c = '=' then some { r with mode := .eq n as k }
    else if k = [] ∧ c = '/' then some { r with mode := .slash n as }
    else some { r with mode := .attr n as (k ++ [c]) }
  | .eq n as k => if c = '"' then some { r with mode := .val n as k [] } else none
  | .val n as k v =>
    if c = '"' then (readText v).map fun v' => { r with mode := .tag n (as ++ [(k, v')]) }
    else some { r with mode := .val n as k (v ++ [c]) }
  | .tag n as =>
    if c = ' ' then some { r with mode := .attr n as [] }
    else if c = '>' then
      some { top := ⟨n, as, []⟩, stack := r.top :: r.stack, mode := .text [] }
    else if c = '/' then some { r with mode := .slash n as }
    else none
  | .slash n as =>
    if c = '>' then some { r with top := r.top.push (.elem n as []), mode := .text [] } else none

/-- Reads a string. -/
def steps (r : Reader) : Str → Option Reader
  | [] => some r
  | c :: cs => (step r c).bind fun r' => steps r' cs

/-- Reads a whole document fragment: all elements closed, trailing text flushed. -/
def parse (s : Str) : Option (List Node) :=
  match steps ⟨⟨[], [], []⟩, [], .text []⟩ s with
  | some ⟨top, [], .text raw⟩ => (flush top raw).map (·.kids)
  | _ => none

end PptRs.Spec
