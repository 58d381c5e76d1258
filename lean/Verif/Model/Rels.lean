import Verif.Model.Str

/-!
# Relationship parts: writing, scanning and resolving
-/

namespace PptRs

/-- One `<Relationship>` element. -/
structure RelEntry where
  id : Str
  type : Str
  target : Str
  external : Bool
deriving DecidableEq, Repr

/-- Common prefix of the relationship type URIs. -/
def relTypeBase : Str := c!"http://schemas.openxmlformats.org/officeDocument/2006/relationships/"

/-- The text of one relationship element. Every writer in the crate uses this attribute order:
src/generator/package_xml.rs 204-239, 502-580 (without `TargetMode`),
src/generator/hyperlinks.rs 204-218 (with `TargetMode`), src/parts/relationships.rs 86-93. -/
def renderRel (r : RelEntry) : Str :=
  c!"<Relationship Id=\"" ++ r.id ++ c!"\" Type=\"" ++ r.type ++ c!"\" Target=\"" ++ r.target ++
    c!"\"" ++ (if r.external then c!" TargetMode=\"External\"" else []) ++ c!"/>"

/-- The text before the first relationship element
(src/generator/package_xml.rs 199-200, 494-495, 534-535). -/
def relsHeader : Str :=
  c!"<?xml version=\"1.0\" encoding=\"UTF-8\" standalone=\"yes\"?>\n<Relationships xmlns=\"http://schemas.openxmlformats.org/package/2006/relationships\">"

/-- A whole relationship part: header, each element preceded by a line break, closing tag
(src/generator/package_xml.rs 192-243, 485-517, 520-584). -/
def renderRels (l : List RelEntry) : Str :=
  relsHeader ++ (l.flatMap fun r => '\n' :: renderRel r) ++ c!"\n</Relationships>"

/-- src/core/package_validation/rels.rs 4-14. -/
def relsSourceDir (relsPath : Str) : Str :=
  if relsPath = c!"_rels/.rels" then []
  else
    let partPath := match splitOnce? c!"/_rels/" relsPath with
      | some (a, b) => a ++ c!"/" ++ b
      | none => relsPath
    let partPath := (stripSuffix? c!".rels" partPath).getD partPath
    match rsplitOnceChar? '/' partPath with
    | some (dir, _) => dir
    | none => []

/-- One step of the loop of `resolve_rel_target`
(src/core/package_validation/rels.rs 28-36). -/
def resolveStep (parts : List Str) (segment : Str) : List Str :=
  if segment = c!".." then parts.dropLast
  else if segment = c!"." ∨ segment = [] then parts
  else parts ++ [segment]

/-- src/core/package_validation/rels.rs 17-39. -/
def resolveRelTarget (baseDir target : Str) : Str :=
  if startsWith c!"/" target then trimStartChar '/' target
  else
    let parts : List Str := if baseDir = [] then [] else splitChar '/' baseDir
    joinStr c!"/" ((splitChar '/' target).foldl resolveStep parts)

/-- src/core/package_validation/context.rs 11-19. -/
structure Relationship where
  id : Str
  target : Str
  resolved : Str
  targetMode : Str
deriving DecidableEq, Repr

/-- The part of a text from the first `c` on, or nothing left (`find(c)` with
`unwrap_or(len)`), together with the text before it. -/
def cutAt (c : Char) : Str → Str × Str
  | [] => ([], [])
  | x :: xs => if x = c then ([], x :: xs) else (x :: (cutAt c xs).1, (cutAt c xs).2)

/-- src/core/package_validation/context.rs 121-163: the scanning loop on the text that is left
(the code keeps an offset `search_from` instead). Each round drops at least the four characters
`Id="`, so the fuel given by `parseRelationships` never runs out (`parseRelsLoop_fuel`). -/
def parseRelsLoop (baseDir : Str) : Nat → Str → List Relationship
  | 0, _ => []
  | fuel + 1, s =>
    match splitOnce? c!"Id=\"" s with
    | none => []
    | some (_, afterNeedle) =>
      match splitOnce? c!"\"" afterNeedle with
      | none => []
      | some (id, rest) =>
        match splitOnce? c!"Target=\"" ('"' :: rest) with
        | none => parseRelsLoop baseDir fuel ('"' :: rest)
        | some (_, afterTarget) =>
          match splitOnce? c!"\"" afterTarget with
          | none => []
          | some (target, rest2) =>
            let tail := cutAt '>' ('"' :: rest2)
            let mode := if containsStr c!"TargetMode=\"External\"" tail.1 then c!"External" else []
            ⟨id, target, resolveRelTarget baseDir target, mode⟩ :: parseRelsLoop baseDir fuel tail.2

/-- src/core/package_validation/context.rs 116-166. -/
def parseRelationships (relsXml baseDir : Str) : List Relationship :=
  parseRelsLoop baseDir relsXml.length relsXml

end PptRs
