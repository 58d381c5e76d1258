import Verif.Model.Str
import Verif.Model.AMap

/-!
# Comment authors
-/

namespace PptRs

/-- src/generator/slide_content/comments.rs 10-15. -/
structure CommentAuthor where
  id : Nat
  name : Str
  initials : Str
  colorIndex : Nat
deriving DecidableEq, Repr

/-- src/generator/slide_content/comments.rs 103-107. `nextId` is assumed to fit `u32`. -/
structure CommentAuthorList where
  authors : List CommentAuthor
  nameToId : AMap Str Nat
  nextId : Nat
deriving DecidableEq, Repr

namespace CommentAuthorList

/-- `Default`, src/generator/slide_content/comments.rs 110-112. -/
def new : CommentAuthorList := ⟨[], [], 0⟩

/-- src/generator/slide_content/comments.rs 115-125. -/
def getOrAdd (l : CommentAuthorList) (name initials : Str) : CommentAuthorList × Nat :=
  match l.nameToId.get name with
  | some id => (l, id)
  | none =>
    ({ authors := l.authors ++ [⟨l.nextId, name, initials, l.nextId⟩]
       nameToId := l.nameToId.insert name l.nextId
       nextId := l.nextId + 1 }, l.nextId)

/-- src/generator/slide_content/comments.rs 128-130. -/
def getById (l : CommentAuthorList) (id : Nat) : Option CommentAuthor :=
  l.authors.find? fun a => a.id = id

end CommentAuthorList

end PptRs
