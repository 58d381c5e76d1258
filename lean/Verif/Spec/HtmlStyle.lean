import Verif.Spec.Html
import Verif.Spec.Chains
import Verif.Model.SlideText

/-!
# Web pages with styles
-/

namespace PptRs.Spec
open PptRs

/-- A colour as six hexadecimal digits. -/
def hexColor (digits : Str) (c : Fin 256 × Fin 256 × Fin 256) : Str :=
  let two (b : Fin 256) : Str := [(digits[b.val / 16]?).getD '0', (digits[b.val % 16]?).getD '0']
  two c.1 ++ two c.2.1 ++ two c.2.2

def upperHex : Str := c!"0123456789ABCDEF"
def lowerHex : Str := c!"0123456789abcdef"

/-- Declarations of a style. -/
inductive Decl where
  | color (c : Fin 256 × Fin 256 × Fin 256)
  | background (c : Fin 256 × Fin 256 × Fin 256)
  | size (points : Nat)
  | weight (bold : Bool)
  | slant (italic : Bool)
  | line (under through : Bool)
  | font (name : Str)

def Decl.name : Decl → Str
  | .color _ => c!"color"
  | .background _ => c!"background-color"
  | .size _ => c!"font-size"
  | .weight _ => c!"font-weight"
  | .slant _ => c!"font-style"
  | .line _ _ => c!"text-decoration"
  | .font _ => c!"font-family"

def Decl.value : Decl → Str
  | .color c => c!"#" ++ hexColor lowerHex c
  | .background c => c!"rgb(" ++ dec c.1.val ++ c!", " ++ dec c.2.1.val ++ c!", " ++ dec c.2.2.val ++ c!")"
  | .size n => dec n ++ c!"pt"
  | .weight b => if b then c!"bold" else c!"normal"
  | .slant b => if b then c!"italic" else c!"normal"
  | .line true true => c!"underline line-through"
  | .line true false => c!"underline"
  | .line false true => c!"line-through"
  | .line false false => c!"none"
  | .font n => n

def Decl.text (d : Decl) : Str := d.name ++ c!": " ++ d.value

/-- A style attribute. -/
def styleText (ds : List Decl) : Str := joinStr c!"; " (ds.map Decl.text)

def styleAttrs (ds : List Decl) : List (Str × Str) := if ds = [] then [] else [(c!"style", styleText ds)]

/-- The format that some declarations ask for, the outermost first. -/
def wantedFormat (ds : List Decl) : Option BulletTextFormat :=
  if ds = [] then none
  else some {
    bold := lastSet (fun | .weight b => some b | _ => none) false ds
    italic := lastSet (fun | .slant b => some b | _ => none) false ds
    underline := lastSet (fun | .line u _ => some u | _ => none) false ds
    strikethrough := lastSet (fun | .line _ t => some t | _ => none) false ds
    color := lastSet (fun | .color c => some (some (hexColor upperHex c)) | _ => none) none ds
    highlight := lastSet (fun | .background c => some (some (hexColor upperHex c)) | _ => none) none ds
    fontSize := lastSet (fun | .size n => some (some n) | _ => none) none ds
    fontFamily := lastSet (fun | .font n => some (some n) | _ => none) none ds }

/-- Sizes fit into 32 bits, names of fonts are not blank at an end and contain no `;` and no quotes. -/
def Decl.Ok : Decl → Prop
  | .size n => n < 4294967296
  | .font n => n ≠ [] ∧ (∀ c, n.head? = some c → isWs c = false) ∧ (∀ c, n.getLast? = some c → isWs c = false) ∧
      ';' ∉ n ∧ '"' ∉ n ∧ '\'' ∉ n
  | _ => True

/-- Headings, paragraphs and lists with styles. -/
inductive StyledBlock where
  | para (ds : List Decl) (l : List Inline)
  | sub (level : Fin 5) (ds : List Decl) (l : List Inline)
  | list (ordered : Bool) (ds : List Decl) (items : List (List Decl × List Inline))

def styledItem (p : List Decl × List Inline) : Html := .elem c!"li" (styleAttrs p.1) (p.2.map Inline.html)

def StyledBlock.html : StyledBlock → Html
  | .para ds l => .elem c!"p" (styleAttrs ds) (l.map Inline.html)
  | .sub k ds l => .elem (subName k) (styleAttrs ds) (l.map Inline.html)
  | .list ord ds items => .elem (if ord then c!"ol" else c!"ul") (styleAttrs ds) (items.map styledItem)

/-- The bullets with their formats; items of a list inherit the declarations of the list, and everything those around it. -/
def StyledBlock.bullets (outer : List Decl) : StyledBlock → List (Str × Option BulletTextFormat)
  | .para ds l => (filled (showL l)).map fun t => (t, wantedFormat (outer ++ ds))
  | .sub _ ds l => (filled (showL l)).map fun t => (c!"**" ++ t ++ c!"**", wantedFormat (outer ++ ds))
  | .list _ ds items => items.flatMap fun p => (filled (showL p.2)).map fun t => (t, wantedFormat (outer ++ ds ++ p.1))

def StyledBlock.Ok : StyledBlock → Prop
  | .para ds _ => ∀ d ∈ ds, d.Ok
  | .sub _ ds _ => ∀ d ∈ ds, d.Ok
  | .list _ ds items => (∀ d ∈ ds, d.Ok) ∧ ∀ p ∈ items, ∀ d ∈ p.1, d.Ok

structure StyledSection where
  decls : List Decl
  title : List Inline
  blocks : List StyledBlock

def StyledSection.html (s : StyledSection) : List Html :=
  .elem c!"h1" (styleAttrs s.decls) (s.title.map Inline.html) :: s.blocks.map StyledBlock.html

def StyledSection.bullets (outer : List Decl) (s : StyledSection) : List (Str × Option BulletTextFormat) :=
  s.blocks.flatMap (StyledBlock.bullets outer)

def StyledSection.Ok (s : StyledSection) : Prop := (∀ d ∈ s.decls, d.Ok) ∧ ∀ b ∈ s.blocks, b.Ok

/-- A page of sections with a style for all of them. -/
def styledPage (outer : List Decl) (a : List StyledSection) : Html :=
  .elem c!"body" (styleAttrs outer) (a.flatMap StyledSection.html)

/-- The names of colours known to the importer and their values in the CSS standard. -/
def cssColors : List (Str × Fin 256 × Fin 256 × Fin 256) :=
  [(c!"red", 255, 0, 0), (c!"blue", 0, 0, 255), (c!"green", 0, 128, 0), (c!"yellow", 255, 255, 0),
   (c!"white", 255, 255, 255), (c!"black", 0, 0, 0), (c!"gray", 128, 128, 128), (c!"grey", 128, 128, 128),
   (c!"silver", 192, 192, 192), (c!"maroon", 128, 0, 0), (c!"purple", 128, 0, 128), (c!"fuchsia", 255, 0, 255),
   (c!"lime", 0, 255, 0), (c!"olive", 128, 128, 0), (c!"navy", 0, 0, 128), (c!"teal", 0, 128, 128),
   (c!"aqua", 0, 255, 255), (c!"orange", 255, 165, 0), (c!"pink", 255, 192, 203), (c!"coral", 255, 127, 80),
   (c!"tomato", 255, 99, 71), (c!"darkred", 139, 0, 0), (c!"darkblue", 0, 0, 139), (c!"darkgreen", 0, 100, 0),
   (c!"darkgray", 169, 169, 169), (c!"darkgrey", 169, 169, 169), (c!"lightgray", 211, 211, 211),
   (c!"lightgrey", 211, 211, 211), (c!"darkorange", 255, 140, 0), (c!"brown", 165, 42, 42), (c!"crimson", 220, 20, 60),
   (c!"gold", 255, 215, 0), (c!"goldenrod", 218, 165, 32), (c!"indigo", 75, 0, 130), (c!"salmon", 250, 128, 114),
   (c!"chocolate", 210, 105, 30), (c!"steelblue", 70, 130, 180), (c!"violet", 238, 130, 238), (c!"orchid", 218, 112, 214),
   (c!"plum", 221, 160, 221), (c!"wheat", 245, 222, 179), (c!"deeppink", 255, 20, 147), (c!"hotpink", 255, 105, 180),
   (c!"royalblue", 65, 105, 225), (c!"skyblue", 135, 206, 235), (c!"seagreen", 46, 139, 87), (c!"forestgreen", 34, 139, 34)]

end PptRs.Spec
