import Verif.Model.ImageBuilder
import Verif.Lemmas.DrawingRead
import Verif.Lemmas.Rels
import Verif.Props.Base64
import Verif.Props.Units

/-!
# C130: building images
-/

namespace PptRs.Props

open PptRs.Spec PptRs.Draw PptRs.Img PptRs.Fl PptRs.Units

/-- The first result of a function on a list. -/
def firstSome {α β : Type} (f : α → Option β) : List α → Option β
  | [] => none
  | a :: l => (f a).or (firstSome f l)

/-- The last value that calls gave. -/
def lastCall {β : Type} (f : Call → Option β) (cs : List Call) : Option β := firstSome f cs.reverse

/-- The position of a call. -/
def posOf : Call → Option (Nat × Nat)
  | .position x y => some (x, y)
  | _ => none
/-- The crop of a call. -/
def cropOf : Call → Option Crop
  | .crop c => some c
  | _ => none
/-- The format of a call. -/
def formatOf : Call → Option Str
  | .format f => some (f.map Char.toUpper)
  | _ => none
/-- The effect of a call. -/
def effectOf : Call → Option ImageEffect
  | .effect e => some e
  | _ => none

/-- Whatever is called in whatever order: the image has the position, the crop and the format that
were given last, all effects in the order of the calls, and the file and the data it began with. -/
theorem C130_calls (b : Builder) (cs : List Call) :
    (let i := (cs.foldl Builder.call b).build
     (i.x, i.y) = (lastCall posOf cs).getD (b.x, b.y) ∧ i.crop = (lastCall cropOf cs).or b.crop
      ∧ i.format = (lastCall formatOf cs).getD b.format ∧ i.effects = b.effects ++ cs.filterMap effectOf
      ∧ i.filename = b.filename ∧ i.source = b.source ∧ i.altText = none) := by
  show _ ∧ _ ∧ _ ∧ _ ∧ _ ∧ _ ∧ _
  rw [← List.foldr_reverse, ← List.reverse_reverse cs, List.filterMap_reverse]
  unfold lastCall
  rw [List.reverse_reverse]
  induction cs.reverse with
  | nil => simp [firstSome, Builder.build]
  | cons c l ih =>
    rw [List.foldr_cons]
    generalize l.foldr (fun c b => Builder.call b c) b = d at ih ⊢
    obtain ⟨h1, h2, h3, h4, h5, h6, h7⟩ := ih
    simp only [Builder.build] at h1 h2 h3 h4 h5 h6 ⊢
    cases c <;> simp_all [List.filterMap_cons, Builder.call, firstSome, posOf, cropOf, formatOf, effectOf, upper]

/-- The sizes. -/
def sizeCall : Call → Bool
  | .size .. => true
  | .scaleToWidth _ => true
  | .scaleToHeight _ => true
  | _ => false

/-- The size is the one given by the last call for it, and without such a call the one it began with;
after scaling, the side that was asked for is exact. -/
theorem C130_size (b : Builder) (cs ds : List Call) (hd : ∀ c ∈ ds, sizeCall c = false) :
    (let i := fun l : List Call => ((l ++ ds).foldl Builder.call b).build
     ((i []).width = b.width ∧ (i []).height = b.height)
      ∧ (∀ w h, (i (cs ++ [.size w h])).width = w ∧ (i (cs ++ [.size w h])).height = h)
      ∧ (∀ w, (i (cs ++ [.scaleToWidth w])).width = w)
      ∧ ∀ h, (i (cs ++ [.scaleToHeight h])).height = h) := by
  have key : ∀ b : Builder, (ds.foldl Builder.call b).width = b.width
      ∧ (ds.foldl Builder.call b).height = b.height := by
    induction ds with
    | nil => exact fun b => ⟨rfl, rfl⟩
    | cons c l ih =>
      intro b
      obtain ⟨h1, h2⟩ := ih (fun c hc => hd c (by simp [hc])) (Builder.call b c)
      rw [List.foldl_cons, h1, h2]
      have := hd c (by simp)
      cases c <;> simp_all [sizeCall, Builder.call]
  simp only [Builder.build, List.foldl_append, List.foldl_cons, List.foldl_nil]
  refine ⟨key b, fun w h => key _, fun w => (key _).1, fun h => (key _).2⟩

/-- **C130** (partial: the sides fit into 32 bits and are not zero). After scaling, the other side is the one
that keeps the shape the image had before, up to about one EMU, and exact up to one EMU where the rule of
three gives a whole number. -/
theorem C130_scale_partial (b : Builder) (cs : List Call) (n : Nat) (hn : n ≤ maxU32) :
    (let i := (cs.foldl Builder.call b).build
     let w := ((cs ++ [Call.scaleToWidth n]).foldl Builder.call b).build
     let h := ((cs ++ [Call.scaleToHeight n]).foldl Builder.call b).build
     0 < i.width → 0 < i.height → i.width ≤ maxU32 → i.height ≤ maxU32 →
      ((n : Rat) * i.height / i.width ≤ maxU32 →
        |(w.height : Rat) - n * i.height / i.width| < 1 + 1 / 100000
        ∧ ∀ m : Nat, (n : Rat) * i.height / i.width = m → w.height = m ∨ w.height + 1 = m)
      ∧ ((n : Rat) * i.width / i.height ≤ maxU32 →
        |(h.width : Rat) - n * i.width / i.height| < 1 + 1 / 100000
        ∧ ∀ m : Nat, (n : Rat) * i.width / i.height = m → h.width = m ∨ h.width + 1 = m)) := by
  intro i w h h1 h2 h3 h4
  have e1 : w.height = heightFor i.width i.height n := by
    simp only [w, i, List.foldl_append, List.foldl_cons, List.foldl_nil, Builder.call, Builder.build]
  have e2 : h.width = widthFor i.width i.height n := by
    simp only [h, i, List.foldl_append, List.foldl_cons, List.foldl_nil, Builder.call, Builder.build]
  rw [e1, e2]
  exact C131_scale_partial i.width i.height n h1 h2 h3 h4 hn

example : ((([.size 1828800 914400, .scaleToHeight 457200, .position 1 2] : List Call).foldl Builder.call
    (Builder.new c!"a.png" 10 20)).build.width) = 914400 := by
  decide +kernel

/-- The other ways to build: the crop or the effects are those given, and the rest is that of `build`. -/
theorem C130_build_with (b : Builder) (c : Crop) (l : List ImageEffect) :
    (∀ i ∈ [b.buildWithCrop c, b.buildWith l], ({ i with crop := b.crop, effects := b.effects } : Image) = b.build)
    ∧ (b.buildWithCrop c).crop = some c ∧ (b.buildWith l).effects = l := by
  refine ⟨?_, rfl, rfl⟩
  intro i hi
  simp only [List.mem_cons, List.not_mem_nil, or_false] at hi
  rcases hi with rfl | rfl <;> rfl

/-- What is drawn for the image is read back as it was built. -/
theorem C130_drawn (i : Image) (id rel : Nat) :
    ∃ k, ReadsAs (fmt (pictureXml i.picture id rel)) [k] ∧ (readPicture k).name = some i.filename
      ∧ (readPicture k).description = i.altText
      ∧ (readPicture k).place = ⟨some (dec i.x), some (dec i.y), some (dec i.width), some (dec i.height)⟩
      ∧ (readPicture k).effects = i.effects.map ImageEffect.tag
      ∧ (readPicture k).crop = match i.crop with
        | none => [none, none, none, none]
        | some c => [cropValue c.left, cropValue c.top, cropValue c.right, cropValue c.bottom] := by
  refine ⟨_, (readsTagged_picture i.picture id rel).nodes.readsAs, ?_⟩
  rw [readPicture_node]
  exact ⟨rfl, rfl, rfl, rfl, rfl⟩

example : ((([.effect .shadow, .crop ⟨1, 2, 3, 4⟩, .position 5 6, .effect .blur, .position 7 8] : List Call).foldl
    Builder.call (Builder.new c!"a/b.jpeg" 10 20)).build)
    = ⟨c!"a/b.jpeg", 10, 20, 7, 8, c!"JPEG", some (.file c!"a/b.jpeg"), some ⟨1, 2, 3, 4⟩, [.shadow, .blur], none⟩ := by
  decide +kernel

/-! ### Names, extensions and types -/

/-- The formats that are known. -/
def imageFormats : List (Str × Str × Str) := [(c!"PNG", c!"png", c!"image/png"), (c!"JPG", c!"jpg", c!"image/jpeg"),
  (c!"JPEG", c!"jpg", c!"image/jpeg"), (c!"GIF", c!"gif", c!"image/gif"), (c!"BMP", c!"bmp", c!"image/bmp"),
  (c!"TIFF", c!"tiff", c!"image/tiff"), (c!"SVG", c!"svg", c!"image/svg+xml")]

theorem rsplitOnceChar?_none {c : Char} {b : Str} (h : c ∉ b) : rsplitOnceChar? c b = none := by
  induction b with
  | nil => rfl
  | cons d b ih =>
    have hd : d ≠ c := by rintro rfl; simp at h
    have hb : c ∉ b := fun hb => h (by simp [hb])
    simp [rsplitOnceChar?, ih hb, hd]

theorem pathExt_dot {a e : Str} (h1 : '/' ∉ a ++ '.' :: e) (h2 : '.' ∉ e) (h3 : a ≠ []) : pathExt (a ++ '.' :: e) = some e := by
  unfold pathExt External.fileExt
  rw [rsplitOnceChar?_none h1]
  simp only [Option.map_none, Option.getD_none]
  rw [rsplitOnceChar?_append h2]
  simp [h3]

/-- An image made from data has the extension and the type of its format, in whatever case it is
written: of the seven formats above. -/
theorem C130_format_partial (source : Source) (w h : Nat) {f g e m : Str} (hm : (g, e, m) ∈ imageFormats) (hf : upper f = g)
    (uuid : Str) (hu : '/' ∉ uuid) :
    (∀ i ∈ [(Builder.ofData source w h f).build, Image.ofData uuid source w h f],
      i.format = g ∧ i.extension = e ∧ i.mime = m ∧ extType i.extension = m) := by
  have hfe : formatAndExt f = (g, if g = c!"JPEG" then c!"jpg" else lower g) := by
    unfold formatAndExt; rw [hf]
  have table : ∀ q ∈ imageFormats, (if q.1 = c!"JPEG" then c!"jpg" else lower q.1) = q.2.1 ∧ '/' ∉ q.2.1 ∧ '.' ∉ q.2.1
      ∧ lower q.2.1 = q.2.1 ∧ extType q.2.1 = q.2.2 ∧ ∀ i : Image, i.format = q.1 → i.mime = q.2.2 := by
    have a : ∀ q ∈ imageFormats, (if q.1 = c!"JPEG" then c!"jpg" else lower q.1) = q.2.1 ∧ '/' ∉ q.2.1 ∧ '.' ∉ q.2.1
      ∧ lower q.2.1 = q.2.1 ∧ extType q.2.1 = q.2.2 := by decide +kernel
    intro q hq
    obtain ⟨a1, a2, a3, a4, a5⟩ := a q hq
    refine ⟨a1, a2, a3, a4, a5, fun i hi => ?_⟩
    unfold Image.mime
    rw [hi]
    clear hi a a1 a2 a3 a4 a5 i
    revert q
    decide +kernel
  obtain ⟨t1, t2, t3, t4, t5, t6⟩ := table _ hm
  simp only at t1 t2 t3 t4 t5 t6
  have ext : ∀ (n : Str), n ≠ [] → '/' ∉ n → ∀ i : Image, i.filename = n ++ '.' :: e → i.extension = e := by
    intro n hn hs i hi
    unfold Image.extension
    rw [hi, pathExt_dot (by simp [hs, t2]) t3 hn]
    exact t4
  intro i hi
  simp only [List.mem_cons, List.not_mem_nil, or_false] at hi
  have hx : i.extension = e := by
    rcases hi with rfl | rfl
    · refine ext c!"image" (by decide) (by decide) _ ?_
      show c!"image." ++ (formatAndExt f).2 = _
      rw [hfe, t1]; rfl
    · refine ext (c!"image_" ++ uuid) (by simp) (by simp [hu]) _ ?_
      show c!"image_" ++ uuid ++ c!"." ++ (formatAndExt f).2 = _
      rw [hfe, t1]; simp
  have hg : i.format = g := by
    rcases hi with rfl | rfl
    · show (formatAndExt f).1 = _
      rw [hfe]
    · show (formatAndExt f).1 = _
      rw [hfe]
  exact ⟨hg, hx, t6 i hg, by rw [hx, t5]⟩

example : ((Builder.ofData (.bytes [1]) 2 3 c!"jpeg").build.filename, (Builder.ofData (.bytes [1]) 2 3 c!"Png").build.filename)
    = (c!"image.jpg", c!"image.png") := by decide +kernel

/-- An image from a file has the extension of the file, and the format that goes with it. -/
theorem C130_file {a e : Str} (w h : Nat) (ha : a ≠ []) (h1 : a.getLast? ≠ some '/') (h2 : '.' ∉ e) (h3 : '/' ∉ e) :
    (let i := (Builder.new (a ++ '.' :: e) w h).build
     i.extension = lower e ∧ i.format = upper e ∧ i.source = some (.file (a ++ '.' :: e))) := by
  have hx : pathExt (a ++ '.' :: e) = some e := by
    by_cases hs : '/' ∈ a
    · obtain ⟨d, n, rfl, hn⟩ : ∃ d n, a = d ++ '/' :: n ∧ '/' ∉ n := by
        clear ha h1
        induction a with
        | nil => simp at hs
        | cons c a ih =>
          by_cases hc : '/' ∈ a
          · obtain ⟨d, n, rfl, hn⟩ := ih hc
            exact ⟨c :: d, n, rfl, hn⟩
          · simp only [List.mem_cons, hc, or_false] at hs
            exact ⟨[], a, by simp [← hs], hc⟩
      have hne : n ≠ [] := by rintro rfl; simp at h1
      unfold pathExt
      rw [List.append_assoc, List.cons_append, rsplitOnceChar?_append (by simp [hn, h3])]
      simp only [Option.map_some, Option.getD_some]
      unfold External.fileExt
      rw [rsplitOnceChar?_append h2]
      simp [hne]
    · exact pathExt_dot (by simp [hs, h3]) h2 ha
  refine ⟨?_, ?_, rfl⟩
  · show ((pathExt (a ++ '.' :: e)).map lower).getD _ = _
    rw [hx]; rfl
  · show ((pathExt (a ++ '.' :: e)).map upper).getD _ = _
    rw [hx]; rfl

example : (Builder.new c!"dir.d/photo.JPG" 1 2).build.extension = c!"jpg" := by decide +kernel

/-- An image made from text in Base64 has the bytes that were encoded. -/
theorem C130_base64 (files : Str → Option Bytes) (d : Bytes) (w h : Nat) (f : Str) :
    (Builder.ofData (.base64 (base64Encode d)) w h f).build.getBytes files = some d
      ∧ (Builder.ofData (.bytes d) w h f).build.getBytes files = some d := by
  refine ⟨?_, rfl⟩
  show base64Decode (base64Encode d) = some d
  rw [C20_encode_is_base64, C20_decode_base64]

/-- The relationship of an image is read back, with any target. -/
theorem C130_relationship (rel : Nat) (path : Str) :
    ReadsAs (fmt (relationshipXml rel path)) [E c!"Relationship" [(c!"Id", c!"rId" ++ dec rel),
      (c!"Type", c!"http://schemas.openxmlformats.org/officeDocument/2006/relationships/image"), (c!"Target", path)] []] :=
  ((Splits.lit (by unfold relationshipXml; parts_ok)).readsNodes (by krfl)).readsAs

/-- **C130 does not hold in full.** Image builder: `build_with_crop` loses the effects, and
`build_with_shadow`, `build_with_glow` and the like lose the crop and all effects added before, for
every builder. -/
theorem C130_build_violated (b : Builder) (c : Crop) (l : List ImageEffect) :
    (b.buildWithCrop c).effects = [] ∧ (b.buildWith l).crop = none ∧ (b.buildWith l).effects = l := ⟨rfl, rfl, rfl⟩

/-- **C130 does not hold in full.** Image builder: `format` changes the format but not the file name,
so the extension under which the image is stored stays that of the old format; images of a format
without a type (`WEBP`, which `from_path` gives, and `TIF`) have the type `application/octet-stream`;
and all images that are built from data have the same name. -/
theorem C130_format_violated :
    ((Builder.call (Builder.ofData (.bytes []) 1 1 c!"PNG") (.format c!"JPEG")).build.format,
      (Builder.call (Builder.ofData (.bytes []) 1 1 c!"PNG") (.format c!"JPEG")).build.extension)
      = (c!"JPEG", c!"png")
    ∧ (∀ f ∈ [c!"webp", c!"tif"], (Builder.ofData (.bytes []) 1 1 f).build.mime = c!"application/octet-stream")
    ∧ ∀ a b w h w' h' f, (Builder.ofData a w h f).build.filename = (Builder.ofData b w' h' f).build.filename :=
  ⟨by decide +kernel, by decide +kernel, fun _ _ _ _ _ _ _ => rfl⟩

end PptRs.Props
