import Verif.Model.Whole
import Verif.Model.WebParser

/-!
# The options of the web converter

`Web2PptConfig` and `ConversionOptions` in full, src/web2ppt/config.rs and src/web2ppt/converter.rs 30-80, and what becomes of a page with
them: `html_to_pptx_with_options`, src/web2ppt/converter.rs 375-390.
-/

namespace PptRs.WebOptions

open PptRs PptRs.Web PptRs.Whole

/-- `Web2PptConfig` with its defaults, src/web2ppt/config.rs 5-47. -/
structure Config where
  maxSlides : Nat := 20
  maxBullets : Nat := 6
  images : Bool := true
  tables : Bool := true
  code : Bool := true
  agent : Str := c!"Mozilla/5.0 (Macintosh; Intel Mac OS X 10_15_7) AppleWebKit/537.36 (KHTML, like Gecko) Chrome/120.0.0.0 Safari/537.36"
  timeout : Nat := 30
  titleSize : Nat := 44
  contentSize : Nat := 24
  links : Bool := true
  group : Bool := true

/-- `ConversionOptions` with its defaults, src/web2ppt/converter.rs 30-50. -/
structure Options where
  title : Option Str := none
  author : Option Str := none
  source : Bool := true
  pageNumbers : Bool := false

/-- The methods of both, src/web2ppt/config.rs 56-119 and src/web2ppt/converter.rs 59-80. -/
inductive Op where
  | maxSlides (n : Nat) | maxBullets (n : Nat) | images (b : Bool) | tables (b : Bool) | code (b : Bool) | agent (s : Str)
  | timeout (n : Nat) | titleSize (n : Nat) | contentSize (n : Nat) | links (b : Bool) | group (b : Bool)
  | title (s : Str) | author (s : Str) | source (b : Bool) | pageNumbers (b : Bool)

/-- A call of a method, src/web2ppt/config.rs 56-119 and src/web2ppt/converter.rs 59-80. -/
def apply (c : Config × Options) : Op → Config × Options
  | .maxSlides n => ({ c.1 with maxSlides := n }, c.2)
  | .maxBullets n => ({ c.1 with maxBullets := n }, c.2)
  | .images b => ({ c.1 with images := b }, c.2)
  | .tables b => ({ c.1 with tables := b }, c.2)
  | .code b => ({ c.1 with code := b }, c.2)
  | .agent s => ({ c.1 with agent := s }, c.2)
  | .timeout n => ({ c.1 with timeout := n }, c.2)
  | .titleSize n => ({ c.1 with titleSize := n }, c.2)
  | .contentSize n => ({ c.1 with contentSize := n }, c.2)
  | .links b => ({ c.1 with links := b }, c.2)
  | .group b => ({ c.1 with group := b }, c.2)
  | .title s => (c.1, { c.2 with title := some s })
  | .author s => (c.1, { c.2 with author := some s })
  | .source b => (c.1, { c.2 with source := b })
  | .pageNumbers b => (c.1, { c.2 with pageNumbers := b })

/-- What the parser uses, src/web2ppt/parser.rs 299-404. -/
def Config.parser (c : Config) : ParserConfig := ⟨c.images, c.tables, c.code, c.links⟩

/-- What the converter uses, src/web2ppt/converter.rs 128-313. -/
def Config.converter (c : Config) : WebConfig := ⟨c.maxSlides, c.maxBullets, c.images, c.tables, c.code, c.group⟩

/-- `html_to_pptx_with_options` up to the slides, src/web2ppt/converter.rs 375-390 and 109-140; the outer `none` is a panic. -/
def slidesOf (low : Str → Str) (c : Config × Options) (doc : Dom) (url : Str) : Option (Except Unit (List PageIn)) :=
  (parsePage low c.1.parser doc url).map fun r => r.map fun p => ofWeb (buildWebSlides c.1.converter p.page c.2.title c.2.source)

/-- `html_to_pptx_with_options`, src/web2ppt/converter.rs 375-390 and 100-106: the archive. -/
def fileOf (low : Str → Str) (c : Config × Options) (doc : Dom) (url : Str) (secs : Nat) (desc : Str → Str) (other : PartName → Bytes) :
    Option (Except Unit (List (Str × Bytes))) :=
  (parsePage low c.1.parser doc url).map fun r => r.map fun p => webFile c.1.converter p.page c.2.title c.2.source secs desc other

end PptRs.WebOptions
