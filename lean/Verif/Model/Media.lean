import Verif.Model.Template
import Verif.Model.TextConv

/-!
# Video and audio

`src/generator/media.rs`. `to_lowercase` is the ASCII one.
-/

namespace PptRs.Media

open PptRs

/-- `VideoFormat`, src/generator/media.rs 9-17. -/
inductive VideoFormat where
  | mp4 | wmv | avi | mov | mkv | webm | m4v
deriving DecidableEq, Repr

/-- `VideoFormat::mime_type`, src/generator/media.rs 21-31. -/
def VideoFormat.mimeType : VideoFormat → Str
  | .mp4 => c!"video/mp4"
  | .wmv => c!"video/x-ms-wmv"
  | .avi => c!"video/x-msvideo"
  | .mov => c!"video/quicktime"
  | .mkv => c!"video/x-matroska"
  | .webm => c!"video/webm"
  | .m4v => c!"video/x-m4v"

/-- `VideoFormat::extension`, src/generator/media.rs 34-44. -/
def VideoFormat.extension : VideoFormat → Str
  | .mp4 => c!"mp4"
  | .wmv => c!"wmv"
  | .avi => c!"avi"
  | .mov => c!"mov"
  | .mkv => c!"mkv"
  | .webm => c!"webm"
  | .m4v => c!"m4v"

/-- `VideoFormat::from_extension`, src/generator/media.rs 47-58. -/
def VideoFormat.fromExtension (ext : Str) : Option VideoFormat :=
  let e := ext.map Char.toLower
  if e = c!"mp4" then some .mp4
  else if e = c!"wmv" then some .wmv
  else if e = c!"avi" then some .avi
  else if e = c!"mov" then some .mov
  else if e = c!"mkv" then some .mkv
  else if e = c!"webm" then some .webm
  else if e = c!"m4v" then some .m4v
  else none

/-- `AudioFormat`, src/generator/media.rs 63-71. -/
inductive AudioFormat where
  | mp3 | wav | wma | m4a | ogg | flac | aac
deriving DecidableEq, Repr

/-- `AudioFormat::mime_type`, src/generator/media.rs 75-85. -/
def AudioFormat.mimeType : AudioFormat → Str
  | .mp3 => c!"audio/mpeg"
  | .wav => c!"audio/wav"
  | .wma => c!"audio/x-ms-wma"
  | .m4a => c!"audio/mp4"
  | .ogg => c!"audio/ogg"
  | .flac => c!"audio/flac"
  | .aac => c!"audio/aac"

/-- `AudioFormat::extension`, src/generator/media.rs 88-98. -/
def AudioFormat.extension : AudioFormat → Str
  | .mp3 => c!"mp3"
  | .wav => c!"wav"
  | .wma => c!"wma"
  | .m4a => c!"m4a"
  | .ogg => c!"ogg"
  | .flac => c!"flac"
  | .aac => c!"aac"

/-- `AudioFormat::from_extension`, src/generator/media.rs 101-112. -/
def AudioFormat.fromExtension (ext : Str) : Option AudioFormat :=
  let e := ext.map Char.toLower
  if e = c!"mp3" then some .mp3
  else if e = c!"wav" then some .wav
  else if e = c!"wma" then some .wma
  else if e = c!"m4a" then some .m4a
  else if e = c!"ogg" then some .ogg
  else if e = c!"flac" then some .flac
  else if e = c!"aac" then some .aac
  else none

/-- `VideoOptions` and its default, src/generator/media.rs 117-146. -/
structure VideoOptions where
  autoPlay : Bool := false
  loopPlayback : Bool := false
  hideWhenStopped : Bool := false
  muted : Bool := false
  startTime : Option Nat := none
  endTime : Option Nat := none
  volume : Nat := 100
deriving DecidableEq, Repr

/-- `VideoOptions::with_volume`, src/generator/media.rs 170-173. -/
def VideoOptions.withVolume (o : VideoOptions) (v : Nat) : VideoOptions := { o with volume := min v 100 }

/-- `AudioOptions` and its default, src/generator/media.rs 190-213. -/
structure AudioOptions where
  autoPlay : Bool := false
  loopPlayback : Bool := false
  hideDuringShow : Bool := false
  playAcrossSlides : Bool := false
  volume : Nat := 100
deriving DecidableEq, Repr

/-- `AudioOptions::with_volume`, src/generator/media.rs 237-240. -/
def AudioOptions.withVolume (o : AudioOptions) (v : Nat) : AudioOptions := { o with volume := min v 100 }

/-- `Video`, src/generator/media.rs 245-264. -/
structure Video where
  source : Str
  format : VideoFormat
  x : Nat
  y : Nat
  width : Nat
  height : Nat
  options : VideoOptions := {}
  poster : Option Str := none
  altText : Option Str := none
deriving DecidableEq, Repr

/-- The last piece of `rsplit('.')`: what follows the last full stop, or everything. -/
def lastPiece (path : Str) : Str :=
  match rsplitOnceChar? '.' path with
  | some (_, e) => e
  | none => path

/-- `Video::from_file`, src/generator/media.rs 283-287 with 268-280. -/
def Video.fromFile (path : Str) (x y width height : Nat) : Option Video :=
  (VideoFormat.fromExtension (lastPiece path)).map fun f => { source := path, format := f, x, y, width, height }

/-- `Audio`, src/generator/media.rs 310-327. -/
structure Audio where
  source : Str
  format : AudioFormat
  x : Nat
  y : Nat
  width : Nat
  height : Nat
  options : AudioOptions := {}
  altText : Option Str := none
deriving DecidableEq, Repr

/-- `Audio::from_file`, src/generator/media.rs 345-349 with 331-342. -/
def Audio.fromFile (path : Str) (x y width height : Nat) : Option Audio :=
  (AudioFormat.fromExtension (lastPiece path)).map fun f => { source := path, format := f, x, y, width, height }

/-- `generate_video_xml`, src/generator/media.rs 365-406. The fourth argument, the relationship of the
poster, is not used. -/
def videoXml (v : Video) (id : Nat) (rid : Str) (_image : Str) : List Part :=
  t!"<p:pic>
<p:nvPicPr>
<p:cNvPr id=\"{.num id}\" name=\"Video {.num id}\" descr=\"{.esc (v.altText.getD c!"Video")}\">
<a:hlinkClick r:id=\"\" action=\"ppaction://media\"/>
</p:cNvPr>
<p:cNvPicPr>
<a:picLocks noChangeAspect=\"1\"/>
</p:cNvPicPr>
<p:nvPr>
<a:videoFile r:link=\"{.raw rid}\"/>
<p:extLst>
<p:ext uri=\"\x7bDAA4B4D4-6D71-4841-9C94-3DE7FCFB9230}\">
<p14:media xmlns:p14=\"http://schemas.microsoft.com/office/powerpoint/2010/main\" r:embed=\"{.raw rid}\"/>
</p:ext>
</p:extLst>
</p:nvPr>
</p:nvPicPr>
<p:blipFill>
<a:blip r:embed=\"{.raw rid}\"/>
<a:stretch>
<a:fillRect/>
</a:stretch>
</p:blipFill>
<p:spPr>
<a:xfrm>
<a:off x=\"{.num v.x}\" y=\"{.num v.y}\"/>
<a:ext cx=\"{.num v.width}\" cy=\"{.num v.height}\"/>
</a:xfrm>
<a:prstGeom prst=\"rect\">
<a:avLst/>
</a:prstGeom>
</p:spPr>
</p:pic>"

/-- `generate_audio_xml`, src/generator/media.rs 409-450. -/
def audioXml (v : Audio) (id : Nat) (rid : Str) : List Part :=
  t!"<p:pic>
<p:nvPicPr>
<p:cNvPr id=\"{.num id}\" name=\"Audio {.num id}\" descr=\"{.esc (v.altText.getD c!"Audio")}\">
<a:hlinkClick r:id=\"\" action=\"ppaction://media\"/>
</p:cNvPr>
<p:cNvPicPr>
<a:picLocks noChangeAspect=\"1\"/>
</p:cNvPicPr>
<p:nvPr>
<a:audioFile r:link=\"{.raw rid}\"/>
<p:extLst>
<p:ext uri=\"\x7bDAA4B4D4-6D71-4841-9C94-3DE7FCFB9230}\">
<p14:media xmlns:p14=\"http://schemas.microsoft.com/office/powerpoint/2010/main\" r:embed=\"{.raw rid}\"/>
</p:ext>
</p:extLst>
</p:nvPr>
</p:nvPicPr>
<p:blipFill>
<a:blip r:embed=\"{.raw rid}\"/>
<a:stretch>
<a:fillRect/>
</a:stretch>
</p:blipFill>
<p:spPr>
<a:xfrm>
<a:off x=\"{.num v.x}\" y=\"{.num v.y}\"/>
<a:ext cx=\"{.num v.width}\" cy=\"{.num v.height}\"/>
</a:xfrm>
<a:prstGeom prst=\"rect\">
<a:avLst/>
</a:prstGeom>
</p:spPr>
</p:pic>"

/-- `video_content_type`, src/generator/media.rs 453-459. -/
def videoContentType (f : VideoFormat) : List Part :=
  t!"<Default Extension=\"{.raw f.extension}\" ContentType=\"{.raw f.mimeType}\"/>"

/-- `audio_content_type`, src/generator/media.rs 462-468. -/
def audioContentType (f : AudioFormat) : List Part :=
  t!"<Default Extension=\"{.raw f.extension}\" ContentType=\"{.raw f.mimeType}\"/>"

end PptRs.Media
