import Verif.Model.Media
import Verif.Model.Drawing

/-!
# Building videos, sounds and links
-/

namespace PptRs.MediaBuild

open PptRs PptRs.Media

/-- The methods of `VideoOptions`, src/generator/media.rs 158-185. -/
inductive VideoOptCall where
  | looping (b : Bool)
  | muted (b : Bool)
  | volume (n : Nat)
  | startTime (n : Nat)
  | endTime (n : Nat)
deriving DecidableEq

/-- What they do, src/generator/media.rs 158-185. -/
def setVideoOpt (o : VideoOptions) : VideoOptCall → VideoOptions
  | .looping b => { o with loopPlayback := b }
  | .muted b => { o with muted := b }
  | .volume n => o.withVolume n
  | .startTime n => { o with startTime := some n }
  | .endTime n => { o with endTime := some n }

/-- `VideoOptions::auto_play`, src/generator/media.rs 150-155. -/
def autoVideo : VideoOptions := { autoPlay := true }

/-- The methods of `AudioOptions`, src/generator/media.rs 225-240. -/
inductive AudioOptCall where
  | looping (b : Bool)
  | acrossSlides (b : Bool)
  | volume (n : Nat)
deriving DecidableEq

/-- What they do, src/generator/media.rs 225-240. -/
def setAudioOpt (o : AudioOptions) : AudioOptCall → AudioOptions
  | .looping b => { o with loopPlayback := b }
  | .acrossSlides b => { o with playAcrossSlides := b }
  | .volume n => o.withVolume n

/-- `AudioOptions::auto_play`, src/generator/media.rs 217-222. -/
def autoAudio : AudioOptions := { autoPlay := true }

/-- The methods of `Video`, src/generator/media.rs 290-305. -/
inductive VideoCall where
  | options (o : VideoOptions)
  | poster (s : Str)
  | altText (s : Str)
deriving DecidableEq

/-- What they do, src/generator/media.rs 290-305. -/
def setVideo (v : Video) : VideoCall → Video
  | .options o => { v with options := o }
  | .poster s => { v with poster := some s }
  | .altText s => { v with altText := some s }

/-- The methods of `Audio`, src/generator/media.rs 352-361. -/
inductive AudioCall where
  | options (o : AudioOptions)
  | altText (s : Str)
deriving DecidableEq

/-- What they do, src/generator/media.rs 352-361. -/
def setAudio (a : Audio) : AudioCall → Audio
  | .options o => { a with options := o }
  | .altText s => { a with altText := some s }

/-- `Video::new`, src/generator/media.rs 268-280. -/
def newVideo (source : Str) (format : VideoFormat) (x y width height : Nat) : Video := { source, format, x, y, width, height }

/-- `Audio::new`, src/generator/media.rs 331-342. -/
def newAudio (source : Str) (format : AudioFormat) (x y width height : Nat) : Audio := { source, format, x, y, width, height }

/-- The methods of `Hyperlink`, src/generator/hyperlinks.rs 144-159. -/
inductive LinkCall where
  | tooltip (s : Str)
  | highlight (b : Bool)
  | rId (s : Str)
deriving DecidableEq

/-- What they do, src/generator/hyperlinks.rs 144-159. -/
def setLink (l : Draw.Link) : LinkCall → Draw.Link
  | .tooltip s => { l with tooltip := some s }
  | .highlight b => { l with highlight := b }
  | .rId s => { l with rId := some s }

/-- `Hyperlink::new`, src/generator/hyperlinks.rs 119-126. -/
def newLink (a : HyperlinkAction) : Draw.Link := { action := a }

end PptRs.MediaBuild
