import Verif.Model.Media
import Verif.Spec.Inline
import Verif.Lemmas.Drawing
import Verif.Lemmas.Rels

/-!
# C128: video and audio
-/

namespace PptRs.Props

open PptRs.Spec PptRs.Media

/-! ### Formats -/

/-- A format is found exactly for its extension, in any case. -/
theorem C128_formats (ext : Str) :
    (∀ f, VideoFormat.fromExtension ext = some f ↔ ext.map Char.toLower = f.extension)
    ∧ (∀ f, AudioFormat.fromExtension ext = some f ↔ ext.map Char.toLower = f.extension)
    ∧ (VideoFormat.fromExtension ext = none ∨ AudioFormat.fromExtension ext = none) := by
  unfold VideoFormat.fromExtension AudioFormat.fromExtension
  generalize ext.map Char.toLower = e
  refine ⟨fun f => ⟨fun h => ?_, fun h => ?_⟩, fun f => ⟨fun h => ?_, fun h => ?_⟩, ?_⟩
  · simp only at h
    repeat' split at h
    all_goals first | (cases h; assumption) | cases h
  · subst h
    cases f <;> decide
  · simp only at h
    repeat' split at h
    all_goals first | (cases h; assumption) | cases h
  · subst h
    cases f <;> decide
  · simp only
    by_cases hv : e ∈ [c!"mp4", c!"wmv", c!"avi", c!"mov", c!"mkv", c!"webm", c!"m4v"]
    · right
      simp only [List.mem_cons, List.not_mem_nil, or_false] at hv
      rcases hv with rfl | rfl | rfl | rfl | rfl | rfl | rfl <;> decide
    · left
      simp only [List.mem_cons, List.not_mem_nil, or_false, not_or] at hv
      obtain ⟨h1, h2, h3, h4, h5, h6, h7⟩ := hv
      simp only [h1, h2, h3, h4, h5, h6, h7, if_false]

example : VideoFormat.fromExtension c!"MP4" = some .mp4 ∧ AudioFormat.fromExtension c!"Flac" = some .flac := by decide

/-- A file is taken as video or audio by what follows its last full stop; everything else is as given. -/
theorem C128_file (base ext : Str) (h : '.' ∉ ext) (x y w h' : Nat) :
    (Video.fromFile (base ++ '.' :: ext) x y w h' =
      (VideoFormat.fromExtension ext).map fun f => ⟨base ++ '.' :: ext, f, x, y, w, h', {}, none, none⟩)
    ∧ (Audio.fromFile (base ++ '.' :: ext) x y w h' =
      (AudioFormat.fromExtension ext).map fun f => ⟨base ++ '.' :: ext, f, x, y, w, h', {}, none⟩) := by
  simp [Video.fromFile, Audio.fromFile, lastPiece, rsplitOnceChar?_append (a := base) h]

example : (Video.fromFile c!"a/b.c/d.WebM" 1 2 3 4).map (·.format) = some .webm ∧ Audio.fromFile c!"a.txt" 1 2 3 4 = none := by
  decide

/-- The entries for `[Content_Types].xml`: one `Default` with the extension of the format and a type of
the right kind; different formats have different extensions. -/
theorem C128_types :
    (∀ f, ReadsAs (fmt (videoContentType f)) [E c!"Default" [(c!"Extension", f.extension), (c!"ContentType", f.mimeType)] []]
      ∧ startsWith c!"video/" f.mimeType = true ∧ VideoFormat.fromExtension f.extension = some f)
    ∧ (∀ f, ReadsAs (fmt (audioContentType f)) [E c!"Default" [(c!"Extension", f.extension), (c!"ContentType", f.mimeType)] []]
      ∧ startsWith c!"audio/" f.mimeType = true ∧ AudioFormat.fromExtension f.extension = some f) := by
  have hv : ∀ f : VideoFormat, Plain f.extension ∧ Plain f.mimeType := by
    intro f; cases f <;> refine ⟨⟨?_, ?_, ?_⟩, ⟨?_, ?_, ?_⟩⟩ <;> decide
  have ha : ∀ f : AudioFormat, Plain f.extension ∧ Plain f.mimeType := by
    intro f; cases f <;> refine ⟨⟨?_, ?_, ?_⟩, ⟨?_, ?_, ?_⟩⟩ <;> decide
  refine ⟨fun f => ⟨?_, ?_⟩, fun f => ⟨?_, ?_⟩⟩
  · obtain ⟨h1, h2⟩ := hv f
    unfold videoContentType
    exact ((Splits.lit (by parts_ok)).readsNodes (by krfl)).readsAs
  · cases f <;> decide
  · obtain ⟨h1, h2⟩ := ha f
    unfold audioContentType
    exact ((Splits.lit (by parts_ok)).readsNodes (by krfl)).readsAs
  · cases f <;> decide

/-- The types by extension: those registered with IANA, or in common use. -/
theorem C128_registered :
    ([.mp4, .wmv, .avi, .mov, .mkv, .webm, .m4v].map fun f : VideoFormat => (f.extension, f.mimeType))
      = [(c!"mp4", c!"video/mp4"), (c!"wmv", c!"video/x-ms-wmv"), (c!"avi", c!"video/x-msvideo"), (c!"mov", c!"video/quicktime"),
        (c!"mkv", c!"video/x-matroska"), (c!"webm", c!"video/webm"), (c!"m4v", c!"video/x-m4v")]
    ∧ ([.mp3, .wav, .wma, .m4a, .ogg, .flac, .aac].map fun f : AudioFormat => (f.extension, f.mimeType))
      = [(c!"mp3", c!"audio/mpeg"), (c!"wav", c!"audio/wav"), (c!"wma", c!"audio/x-ms-wma"), (c!"m4a", c!"audio/mp4"),
        (c!"ogg", c!"audio/ogg"), (c!"flac", c!"audio/flac"), (c!"aac", c!"audio/aac")] := by
  decide

/-! ### Pictures that play -/

/-- A picture that plays something: the picture, what is played (as a link and as a part), and what
happens on a click. -/
structure PlayRead where
  picture : PictureRead
  video : Option Str
  audio : Option Str
  media : Option Str
  click : Option Str
deriving DecidableEq

/-- Reading it. -/
def readPlay (k : Node) : PlayRead where
  picture := readPicture k
  video := pathAttr [c!"p:nvPicPr", c!"p:nvPr", c!"a:videoFile"] c!"r:link" k
  audio := pathAttr [c!"p:nvPicPr", c!"p:nvPr", c!"a:audioFile"] c!"r:link" k
  media := pathAttr [c!"p:nvPicPr", c!"p:nvPr", c!"p:extLst", c!"p:ext", c!"p14:media"] c!"r:embed" k
  click := pathAttr [c!"p:nvPicPr", c!"p:cNvPr", c!"a:hlinkClick"] c!"action" k

/-- The picture of a medium. -/
def playPicture (name : Str) (alt : Option Str) (x y width height id : Nat) (image : Str) : PictureRead where
  id := some (dec id)
  name := some (name ++ ' ' :: dec id)
  description := some (alt.getD name)
  place := ⟨some (dec x), some (dec y), some (dec width), some (dec height)⟩
  image := some image
  crop := [none, none, none, none]
  effects := []

/-- What is meant by a video with the relationship `rid` and a poster with the relationship `image`. -/
def videoExpected (v : Video) (id : Nat) (rid image : Str) : PlayRead where
  picture := playPicture c!"Video" v.altText v.x v.y v.width v.height id image
  video := some rid
  audio := none
  media := some rid
  click := some c!"ppaction://media"

/-- What is meant by audio. -/
def audioExpected (v : Audio) (id : Nat) (rid : Str) : PlayRead where
  picture := playPicture c!"Audio" v.altText v.x v.y v.width v.height id rid
  video := none
  audio := some rid
  media := some rid
  click := some c!"ppaction://media"

/-- The element. -/
def playNode (name file alt : Str) (x y width height id : Nat) (rid : Str) : Node :=
  E c!"p:pic" [] (lines [
    E c!"p:nvPicPr" [] (lines [
      E c!"p:cNvPr" [(c!"id", dec id), (c!"name", name ++ ' ' :: dec id), (c!"descr", alt)] (lines [
        E c!"a:hlinkClick" [(c!"r:id", []), (c!"action", c!"ppaction://media")] []]),
      E c!"p:cNvPicPr" [] (lines [E c!"a:picLocks" [(c!"noChangeAspect", c!"1")] []]),
      E c!"p:nvPr" [] (lines [
        E file [(c!"r:link", rid)] [],
        E c!"p:extLst" [] (lines [E c!"p:ext" [(c!"uri", c!"{DAA4B4D4-6D71-4841-9C94-3DE7FCFB9230}")] (lines [
          E c!"p14:media" [(c!"xmlns:p14", c!"http://schemas.microsoft.com/office/powerpoint/2010/main"),
            (c!"r:embed", rid)] []])])])]),
    E c!"p:blipFill" [] (lines [E c!"a:blip" [(c!"r:embed", rid)] [], E c!"a:stretch" [] (lines [E c!"a:fillRect" [] []])]),
    E c!"p:spPr" [] (lines [
      E c!"a:xfrm" [] (lines [E c!"a:off" [(c!"x", dec x), (c!"y", dec y)] [],
        E c!"a:ext" [(c!"cx", dec width), (c!"cy", dec height)] []]),
      E c!"a:prstGeom" [(c!"prst", c!"rect")] (lines [E c!"a:avLst" [] []])])])

theorem readsNodes_video (v : Video) (id : Nat) {rid : Str} (image : Str) (h : Plain rid) :
    ReadsNodes (videoXml v id rid image)
      [playNode c!"Video" c!"a:videoFile" (v.altText.getD c!"Video") v.x v.y v.width v.height id rid] := by
  unfold videoXml
  exact (Splits.lit (by parts_ok)).readsNodes (by krfl)

theorem readsNodes_audio (v : Audio) (id : Nat) {rid : Str} (h : Plain rid) :
    ReadsNodes (audioXml v id rid)
      [playNode c!"Audio" c!"a:audioFile" (v.altText.getD c!"Audio") v.x v.y v.width v.height id rid] := by
  unfold audioXml
  exact (Splits.lit (by parts_ok)).readsNodes (by krfl)

/-- A video is written as a well-formed picture with its number, name, description (whatever
characters it has), place and what it plays. Missing: the poster is only right when its relationship
is that of the video, and the relationship must not contain XML special characters. -/
theorem C128_video_partial (v : Video) (id : Nat) {rid : Str} (image : Str) (h : Plain rid) :
    ∃ k, ReadsAs (fmt (videoXml v id rid image)) [k] ∧ ordered k = true
      ∧ readPlay k = videoExpected v id rid rid :=
  ⟨_, (readsNodes_video v id image h).readsAs, rfl, rfl⟩

/-- Audio is written as a well-formed picture with its number, name, description, place and what it
plays. -/
theorem C128_audio_partial (v : Audio) (id : Nat) {rid : Str} (h : Plain rid) :
    ∃ k, ReadsAs (fmt (audioXml v id rid)) [k] ∧ ordered k = true ∧ readPlay k = audioExpected v id rid :=
  ⟨_, (readsNodes_audio v id h).readsAs, rfl, rfl⟩

example : (videoExpected { source := c!"a.mp4", format := .mp4, x := 1, y := 2, width := 3, height := 4, altText := some c!"\"A\" & B" }
    7 c!"rId2" c!"rId2").picture.description = some c!"\"A\" & B" := by decide

/-- The volume is at most 100, and the other options stay as they are. -/
theorem C128_volume (v : VideoOptions) (a : AudioOptions) (n : Nat) :
    (v.withVolume n).volume ≤ 100 ∧ (n ≤ 100 → (v.withVolume n).volume = n) ∧ { v.withVolume n with volume := v.volume } = v
    ∧ (a.withVolume n).volume ≤ 100 ∧ (n ≤ 100 → (a.withVolume n).volume = n) ∧ { a.withVolume n with volume := a.volume } = a :=
  ⟨Nat.min_le_right _ _, Nat.min_eq_left, rfl, Nat.min_le_right _ _, Nat.min_eq_left, rfl⟩

/-- **C128 does not hold in full.** `generate_video_xml` does not use the relationship of the poster: the
picture refers to the video itself as its image, for every video and every poster with another
relationship. -/
theorem C128_poster_violated (v : Video) (id : Nat) {rid image : Str} (h : Plain rid) (hne : rid ≠ image) :
    ∃ k, ReadsAs (fmt (videoXml v id rid image)) [k] ∧ readPlay k ≠ videoExpected v id rid image := by
  refine ⟨_, (readsNodes_video v id image h).readsAs, fun e => hne ?_⟩
  have := congrArg (fun r => r.picture.image) e
  exact Option.some.inj this

example : Plain c!"rId2" ∧ c!"rId2" ≠ c!"rId3" := ⟨⟨by decide, by decide, by decide⟩, by decide⟩

/-- **C128 does not hold in full.** The options of a video or of audio (start, loop, mute, volume, times)
and the file have no influence on what is written: two videos that differ only in them give the same
XML. Also the link to the file and the embedded part are written with one and the same relationship,
although they need different types of relationship. -/
theorem C128_options_violated (v : Video) (a : Audio) (ov : VideoOptions) (oa : AudioOptions) (id : Nat) {rid image : Str}
    (h : Plain rid) :
    videoXml { v with options := ov } id rid image = videoXml v id rid image
    ∧ audioXml { a with options := oa } id rid = audioXml a id rid
    ∧ ∃ k, ReadsAs (fmt (videoXml v id rid image)) [k] ∧ (readPlay k).video = (readPlay k).media :=
  ⟨rfl, rfl, _, (readsNodes_video v id image h).readsAs, rfl⟩

/-- **C128 does not hold in full.** A path without a full stop is taken as its own extension
(`from_file`), so a file called `mov` counts as a video. -/
theorem C128_file_violated : (Video.fromFile c!"mov" 0 0 1 1).map (·.format) = some .mov := by decide

end PptRs.Props
