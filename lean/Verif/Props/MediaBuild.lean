import Verif.Model.MediaBuild
import Verif.Props.SettingsBuild

/-!
# Building videos, sounds and links (C176)
-/

namespace PptRs.Props

open PptRs PptRs.Media PptRs.MediaBuild

/-- **C176.** Options of videos: each has the value of the last call for it, volumes cut off at 100; what has no method stays. -/
theorem C176_video_options (o : VideoOptions) (calls : List VideoOptCall) :
    let r := calls.foldl setVideoOpt o
    r.loopPlayback = Spec.latest (fun | .looping b => some b | _ => none) o.loopPlayback calls ∧
    r.muted = Spec.latest (fun | .muted b => some b | _ => none) o.muted calls ∧
    r.volume = Spec.latest (fun | .volume n => some (min n 100) | _ => none) o.volume calls ∧
    r.startTime = Spec.latest (fun | .startTime n => some (some n) | _ => none) o.startTime calls ∧
    r.endTime = Spec.latest (fun | .endTime n => some (some n) | _ => none) o.endTime calls ∧
    r.autoPlay = o.autoPlay ∧ r.hideWhenStopped = o.hideWhenStopped := by
  refine ⟨fold_latest _ _ (·.loopPlayback) ?_ calls o, fold_latest _ _ (·.muted) ?_ calls o, fold_latest _ _ (·.volume) ?_ calls o,
    fold_latest _ _ (·.startTime) ?_ calls o, fold_latest _ _ (·.endTime) ?_ calls o, ?_, ?_⟩
  iterate 5
    · intro s c
      cases c <;> rfl
  all_goals
    induction calls generalizing o with
    | nil => rfl
    | cons c l ih =>
      rw [List.foldl_cons, ih]
      cases c <;> rfl

/-- **C176.** Options of sounds. -/
theorem C176_audio_options (o : AudioOptions) (calls : List AudioOptCall) :
    let r := calls.foldl setAudioOpt o
    r.loopPlayback = Spec.latest (fun | .looping b => some b | _ => none) o.loopPlayback calls ∧
    r.playAcrossSlides = Spec.latest (fun | .acrossSlides b => some b | _ => none) o.playAcrossSlides calls ∧
    r.volume = Spec.latest (fun | .volume n => some (min n 100) | _ => none) o.volume calls ∧
    r.autoPlay = o.autoPlay ∧ r.hideDuringShow = o.hideDuringShow := by
  refine ⟨fold_latest _ _ (·.loopPlayback) ?_ calls o, fold_latest _ _ (·.playAcrossSlides) ?_ calls o, fold_latest _ _ (·.volume) ?_ calls o,
    ?_, ?_⟩
  iterate 3
    · intro s c
      cases c <;> rfl
  all_goals
    induction calls generalizing o with
    | nil => rfl
    | cons c l ih =>
      rw [List.foldl_cons, ih]
      cases c <;> rfl

/-- **C176.** The presets start by themselves and are the defaults otherwise. -/
theorem C176_autoplay : { autoVideo with autoPlay := false } = ({} : VideoOptions) ∧ autoVideo.autoPlay = true ∧
    { autoAudio with autoPlay := false } = ({} : AudioOptions) ∧ autoAudio.autoPlay = true := by decide

/-- **C176.** A video has the source, format, place and size it was made with, and the last options, poster and description given. -/
theorem C176_video (source : Str) (f : VideoFormat) (x y w h : Nat) (calls : List VideoCall) :
    calls.foldl setVideo (newVideo source f x y w h) =
      ⟨source, f, x, y, w, h, Spec.latest (fun | .options o => some o | _ => none) {} calls,
        Spec.latest (fun | .poster s => some (some s) | _ => none) none calls,
        Spec.latest (fun | .altText s => some (some s) | _ => none) none calls⟩ := by
  have h0 : ∀ (calls : List VideoCall) (v : Video), calls.foldl setVideo v =
      ⟨v.source, v.format, v.x, v.y, v.width, v.height, (calls.foldl setVideo v).options, (calls.foldl setVideo v).poster,
        (calls.foldl setVideo v).altText⟩ := by
    intro calls
    induction calls with
    | nil => intro v; rfl
    | cons c l ih =>
      intro v
      rw [List.foldl_cons]
      refine (ih _).trans ?_
      cases c <;> rfl
  rw [h0 calls, fold_latest setVideo (fun | .options o => some o | _ => none) (·.options) (by intro s c; cases c <;> rfl) calls,
    fold_latest setVideo (fun | .poster s => some (some s) | _ => none) (·.poster) (by intro s c; cases c <;> rfl) calls,
    fold_latest setVideo (fun | .altText s => some (some s) | _ => none) (·.altText) (by intro s c; cases c <;> rfl) calls]
  rfl

/-- **C176.** A sound has the source, format, place and size it was made with, and the last options and description given. -/
theorem C176_audio (source : Str) (f : AudioFormat) (x y w h : Nat) (calls : List AudioCall) :
    calls.foldl setAudio (newAudio source f x y w h) =
      ⟨source, f, x, y, w, h, Spec.latest (fun | .options o => some o | _ => none) {} calls,
        Spec.latest (fun | .altText s => some (some s) | _ => none) none calls⟩ := by
  have h0 : ∀ (calls : List AudioCall) (v : Audio), calls.foldl setAudio v =
      ⟨v.source, v.format, v.x, v.y, v.width, v.height, (calls.foldl setAudio v).options, (calls.foldl setAudio v).altText⟩ := by
    intro calls
    induction calls with
    | nil => intro v; rfl
    | cons c l ih =>
      intro v
      rw [List.foldl_cons]
      refine (ih _).trans ?_
      cases c <;> rfl
  rw [h0 calls, fold_latest setAudio (fun | .options o => some o | _ => none) (·.options) (by intro s c; cases c <;> rfl) calls,
    fold_latest setAudio (fun | .altText s => some (some s) | _ => none) (·.altText) (by intro s c; cases c <;> rfl) calls]
  rfl

/-- **C176.** A link does what it was made for, with the last tooltip, highlighting and relationship given; it is highlighted at first. -/
theorem C176_link (a : HyperlinkAction) (calls : List LinkCall) :
    calls.foldl setLink (newLink a) =
      ⟨a, Spec.latest (fun | .tooltip s => some (some s) | _ => none) none calls,
        Spec.latest (fun | .highlight b => some b | _ => none) true calls,
        Spec.latest (fun | .rId s => some (some s) | _ => none) none calls⟩ := by
  have h0 : ∀ (calls : List LinkCall) (v : Draw.Link), calls.foldl setLink v =
      ⟨v.action, (calls.foldl setLink v).tooltip, (calls.foldl setLink v).highlight, (calls.foldl setLink v).rId⟩ := by
    intro calls
    induction calls with
    | nil => intro v; rfl
    | cons c l ih =>
      intro v
      rw [List.foldl_cons]
      refine (ih _).trans ?_
      cases c <;> rfl
  rw [h0 calls, fold_latest setLink (fun | .tooltip s => some (some s) | _ => none) (·.tooltip) (by intro s c; cases c <;> rfl) calls,
    fold_latest setLink (fun | .highlight b => some b | _ => none) (·.highlight) (by intro s c; cases c <;> rfl) calls,
    fold_latest setLink (fun | .rId s => some (some s) | _ => none) (·.rId) (by intro s c; cases c <;> rfl) calls]
  rfl

/-- **C176 does not hold in full.** No calls of the methods make a video that is hidden when it stops or a sound whose icon is hidden, though
there are fields for both; and a video may be told to end before it begins. -/
theorem C176_unreachable_violated :
    (∀ o ∈ [{}, autoVideo], ∀ calls : List VideoOptCall, (calls.foldl setVideoOpt o).hideWhenStopped = false) ∧
      (∀ o ∈ [{}, autoAudio], ∀ calls : List AudioOptCall, (calls.foldl setAudioOpt o).hideDuringShow = false) ∧
      ∀ n m : Nat, m < n → ∃ calls : List VideoOptCall, (calls.foldl setVideoOpt {}).startTime = some n ∧
        (calls.foldl setVideoOpt {}).endTime = some m := by
  refine ⟨fun o ho calls => ?_, fun o ho calls => ?_, fun n m _ => ⟨[.startTime n, .endTime m], rfl, rfl⟩⟩
  · rw [(C176_video_options o calls).2.2.2.2.2.2]
    simp only [List.mem_cons, List.not_mem_nil, or_false] at ho
    rcases ho with rfl | rfl <;> rfl
  · rw [(C176_audio_options o calls).2.2.2.2]
    simp only [List.mem_cons, List.not_mem_nil, or_false] at ho
    rcases ho with rfl | rfl <;> rfl

/-! ### Examples -/

example : ([VideoOptCall.volume 150, .muted true, .volume 30, .muted false].foldl setVideoOpt {}) = { volume := 30 } := by decide

example : (([LinkCall.tooltip c!"a", .highlight false].foldl setLink (newLink (.url c!"u"))).tooltip) = some c!"a" := by decide

end PptRs.Props
