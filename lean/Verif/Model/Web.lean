import Verif.Model.TextConv

/-!
# Web pages to slides

src/web2ppt/parser.rs and src/web2ppt/converter.rs. The HTML parser (`scraper`) is not modelled: a page is the list of
content blocks that the parser extracted.
-/

namespace PptRs

/-- `ContentType`, src/web2ppt/parser.rs 26-45. -/
inductive WebKind where
  | title
  | heading (level : Nat)
  | paragraph
  | listItem
  | code
  | image (src alt : Str)
  | table (rows : List (List Str))
  | quote
  | link (text href : Str)
  deriving DecidableEq

/-- `ContentBlock`, src/web2ppt/parser.rs 49-56; the nesting level is not used by the converter. -/
structure WebBlock where
  kind : WebKind
  text : Str
  deriving DecidableEq

/-- `ContentBlock::new`, src/web2ppt/parser.rs 60-66. -/
def WebBlock.new (kind : WebKind) (text : Str) : WebBlock := ⟨kind, trim text⟩

/-- `is_heading`, src/web2ppt/parser.rs 75-77. -/
def WebBlock.isHeading (b : WebBlock) : Bool :=
  match b.kind with
  | .title => true
  | .heading _ => true
  | _ => false

/-- `WebContent`, src/web2ppt/parser.rs 91-102, without the list of images. -/
structure WebPage where
  title : Str
  url : Str
  description : Option Str
  blocks : List WebBlock

/-- The variables of `grouped_by_headings`. -/
structure GroupState where
  groups : List (WebBlock × List WebBlock)
  heading : Option WebBlock
  content : List WebBlock

/-- The loop body of `grouped_by_headings`, src/web2ppt/parser.rs 132-143. -/
def groupStep (st : GroupState) (b : WebBlock) : GroupState :=
  if b.isHeading then
    match st.heading with
    | some h => ⟨st.groups ++ [(h, st.content)], some b, []⟩
    | none => ⟨st.groups, some b, st.content⟩
  else ⟨st.groups, st.heading, st.content ++ [b]⟩

/-- `grouped_by_headings`, src/web2ppt/parser.rs 127-151. -/
def groupedByHeadings (blocks : List WebBlock) : List (WebBlock × List WebBlock) :=
  let st := blocks.foldl groupStep ⟨[], none, []⟩
  match st.heading with
  | some h => st.groups ++ [(h, st.content)]
  | none => st.groups

/-- `Web2PptConfig`, src/web2ppt/config.rs 5-28, the fields the converter uses. -/
structure WebConfig where
  maxSlides : Nat
  maxBullets : Nat
  images : Bool
  tables : Bool
  code : Bool
  group : Bool

/-- `Web2PptConfig::default`, src/web2ppt/config.rs 31-46. -/
def WebConfig.default : WebConfig := ⟨20, 6, true, true, true, true⟩

/-- A slide of the converter: title and bullets. The layout is `CenteredTitle` for the first and `TitleAndContent` for the
others. -/
structure WebSlide where
  title : Str
  bullets : List Str
  deriving DecidableEq

/-- The bullet for a block in the grouped mode, src/web2ppt/converter.rs 174-215. -/
def groupBullet (cfg : WebConfig) (b : WebBlock) : Option Str :=
  match b.kind with
  | .paragraph => some (truncateText b.text 200)
  | .listItem => some (c!"• " ++ truncateText b.text 180)
  | .quote => some (c!"\"" ++ truncateText b.text 180 ++ c!"\"")
  | .code => if cfg.code then some (c!"[Code] " ++ truncateText b.text 150) else none
  | .table rows =>
    if cfg.tables && !rows.isEmpty then
      some (c!"[Table: " ++ dec rows.length ++ c!" rows × " ++ dec ((rows.head?.map List.length).getD 0) ++ c!" cols]")
    else none
  | .image _ alt => if cfg.images && !alt.isEmpty then some (c!"[Image: " ++ alt ++ c!"]") else none
  | _ => none

/-- The variables of the inner loop of `build_grouped_slides`; `stop` is set by `break`. -/
structure FillState where
  slides : List WebSlide
  slide : WebSlide
  count : Nat
  stop : Bool

/-- Adding the bullet of a block, src/web2ppt/converter.rs 174-215. -/
def addBlock (cfg : WebConfig) (st : FillState) (b : WebBlock) : FillState :=
  match groupBullet cfg b with
  | some t => { st with slide := ⟨st.slide.title, st.slide.bullets ++ [t]⟩, count := st.count + 1 }
  | none => st

/-- The title of a continuation slide, src/web2ppt/converter.rs 165 and 282. -/
def contTitle (t : Str) : Str := t ++ c!" (cont.)"

/-- The inner loop body, src/web2ppt/converter.rs 161-216. -/
def fillStep (cfg : WebConfig) (heading : Str) (st : FillState) (b : WebBlock) : FillState :=
  if st.stop then st
  else if st.count ≥ cfg.maxBullets then
    let st' : FillState := ⟨st.slides ++ [st.slide], ⟨contTitle heading, []⟩, 0, false⟩
    if st'.slides.length ≥ cfg.maxSlides then { st' with stop := true } else addBlock cfg st' b
  else addBlock cfg st b

/-- src/web2ppt/converter.rs 218-221: the last slide of a group is added if it has content. -/
def finishGroup (st : FillState) : List WebSlide :=
  if st.count > 0 then st.slides ++ [st.slide] else st.slides

/-- The outer loop body, src/web2ppt/converter.rs 151-222. Once the limit is reached, every further round is skipped, which
is what `break` does. -/
def groupSlides (cfg : WebConfig) (slides : List WebSlide) (g : WebBlock × List WebBlock) : List WebSlide :=
  if slides.length ≥ cfg.maxSlides then slides
  else finishGroup (g.2.foldl (fillStep cfg g.1.text) ⟨slides, ⟨g.1.text, []⟩, 0, false⟩)

/-- The variables of `build_linear_slides`. -/
structure LinearState where
  slides : List WebSlide
  current : Option WebSlide
  count : Nat

/-- A bullet that is dropped when the slide is full (list items 298-304, quotes 307-313). -/
def linearDrop (cfg : WebConfig) (st : LinearState) (s : WebSlide) (t : Str) : LinearState :=
  if st.count < cfg.maxBullets then ⟨st.slides, some ⟨s.title, s.bullets ++ [t]⟩, st.count + 1⟩
  else ⟨st.slides, some s, st.count⟩

/-- A paragraph, src/web2ppt/converter.rs 273-288. -/
def linearParagraph (cfg : WebConfig) (st : LinearState) (s : WebSlide) (t : Str) : LinearState :=
  if st.count < cfg.maxBullets then ⟨st.slides, some ⟨s.title, s.bullets ++ [t]⟩, st.count + 1⟩
  else ⟨st.slides ++ [s], some ⟨contTitle s.title, [t]⟩, 1⟩

/-- The slides after the current one is saved if it has content, src/web2ppt/converter.rs 251-255 and 320-324. -/
def LinearState.saved (st : LinearState) : List WebSlide :=
  match st.current with
  | some s => if st.count > 0 then st.slides ++ [s] else st.slides
  | none => st.slides

/-- The match on the kind of a block, src/web2ppt/converter.rs 248-316. -/
def linearBlock (cfg : WebConfig) (st : LinearState) (b : WebBlock) : LinearState :=
  match b.kind with
  | .title => ⟨st.saved, some ⟨b.text, []⟩, 0⟩
  | .heading _ => ⟨st.saved, some ⟨b.text, []⟩, 0⟩
  | .paragraph => linearParagraph cfg st (st.current.getD ⟨c!"Overview", []⟩) (truncateText b.text 200)
  | .listItem => linearDrop cfg st (st.current.getD ⟨c!"Key Points", []⟩) (c!"• " ++ truncateText b.text 180)
  | .quote =>
    match st.current with
    | some s => linearDrop cfg st s (c!"\"" ++ truncateText b.text 180 ++ c!"\"")
    | none => st
  | _ => st

/-- The loop body, src/web2ppt/converter.rs 243-317. -/
def linearStep (cfg : WebConfig) (st : LinearState) (b : WebBlock) : LinearState :=
  if st.slides.length ≥ cfg.maxSlides then st else linearBlock cfg st b

/-- `build_linear_slides`, src/web2ppt/converter.rs 228-327. -/
def buildLinear (cfg : WebConfig) (page : WebPage) (slides : List WebSlide) : List WebSlide :=
  if page.blocks.isEmpty then
    match page.description with
    | some d => slides ++ [⟨c!"Content", [d]⟩]
    | none => slides
  else (page.blocks.foldl (linearStep cfg) ⟨slides, none, 0⟩).saved

/-- `build_grouped_slides`, src/web2ppt/converter.rs 143-225. -/
def buildGrouped (cfg : WebConfig) (page : WebPage) (slides : List WebSlide) : List WebSlide :=
  let groups := groupedByHeadings page.blocks
  if groups.isEmpty then buildLinear cfg page slides else groups.foldl (groupSlides cfg) slides

/-- The title slide, src/web2ppt/converter.rs 112-125; `title` is the title of the options, `source` whether the address is
added. -/
def webTitleSlide (page : WebPage) (title : Option Str) (source : Bool) : WebSlide :=
  ⟨title.getD page.title, page.description.toList ++ if source then [c!"Source: " ++ page.url] else []⟩

/-- `build_slides`, src/web2ppt/converter.rs 109-140. -/
def buildWebSlides (cfg : WebConfig) (page : WebPage) (title : Option Str) (source : Bool) : List WebSlide :=
  let first := webTitleSlide page title source
  (if cfg.group then buildGrouped cfg page [first] else buildLinear cfg page [first]).take cfg.maxSlides

end PptRs
