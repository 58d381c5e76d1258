import Verif.Model.SettingsBuild
import Verif.Props.Settings

/-!
# Building settings of a presentation (C176)
-/

namespace PptRs.Props

open PptRs PptRs.Settings PptRs.SettingsBuild

/-- The value of the last call that gives one, or else the one before all calls. -/
def Spec.latest {γ α : Type} (f : γ → Option α) (before : α) (calls : List γ) : α := (calls.reverse.findSome? f).getD before

theorem fold_latest {σ γ α : Type} (set : σ → γ → σ) (f : γ → Option α) (get : σ → α) (h : ∀ s c, get (set s c) = (f c).getD (get s))
    (calls : List γ) : ∀ s, get (calls.foldl set s) = Spec.latest f (get s) calls := by
  unfold Spec.latest
  induction calls with
  | nil => intro s; rfl
  | cons c l ih =>
    intro s
    rw [List.foldl_cons, ih, h, List.reverse_cons, List.findSome?_append]
    cases l.reverse.findSome? f with
    | some a => rfl
    | none => cases hc : f c <;> simp [hc]

/-- **C176.** Slide show settings: after any calls in any order each has the value of the last call for it, or that of the preset. -/
theorem C176_show (s : SlideShow) (calls : List ShowCall) :
    let r := calls.foldl setShow s
    r.showType = Spec.latest (fun | .showType t => some t | _ => none) s.showType calls ∧
    r.looping = Spec.latest (fun | .looping t => some t | _ => none) s.looping calls ∧
    r.withoutNarration = Spec.latest (fun | .withoutNarration t => some t | _ => none) s.withoutNarration calls ∧
    r.withoutAnimation = Spec.latest (fun | .withoutAnimation t => some t | _ => none) s.withoutAnimation calls ∧
    r.penColor = Spec.latest (fun | .penColor c => some (penColorOf c) | _ => none) s.penColor calls ∧
    r.slideRange = Spec.latest (fun | .slideRange t => some t | _ => none) s.slideRange calls ∧
    r.useTimings = Spec.latest (fun | .useTimings t => some t | _ => none) s.useTimings calls ∧
    r.mediaControls = Spec.latest (fun | .mediaControls t => some t | _ => none) s.mediaControls calls := by
  refine ⟨fold_latest _ _ (·.showType) ?_ calls s, fold_latest _ _ (·.looping) ?_ calls s, fold_latest _ _ (·.withoutNarration) ?_ calls s,
    fold_latest _ _ (·.withoutAnimation) ?_ calls s, fold_latest _ _ (·.penColor) ?_ calls s, fold_latest _ _ (·.slideRange) ?_ calls s,
    fold_latest _ _ (·.useTimings) ?_ calls s, fold_latest _ _ (·.mediaControls) ?_ calls s⟩ <;>
  · intro s c
    cases c <;> rfl

/-- **C176.** Print settings: after any calls in any order each has the value of the last call for it, or that before. -/
theorem C176_print (p : PrintSettings) (calls : List PrintCall) :
    let r := calls.foldl setPrint p
    r.what = Spec.latest (fun | .what t => some t | _ => none) p.what calls ∧
    r.colorMode = Spec.latest (fun | .colorMode t => some t | _ => none) p.colorMode calls ∧
    r.handoutLayout = Spec.latest (fun | .handoutLayout t => some t | _ => none) p.handoutLayout calls ∧
    r.frameSlides = Spec.latest (fun | .frameSlides t => some t | _ => none) p.frameSlides calls ∧
    r.scaleToFit = Spec.latest (fun | .scaleToFit t => some t | _ => none) p.scaleToFit calls ∧
    r.includeHidden = Spec.latest (fun | .includeHidden t => some t | _ => none) p.includeHidden calls ∧
    r.portrait = Spec.latest (fun | .portrait t => some t | _ => none) p.portrait calls ∧
    r.masters.header = Spec.latest (fun | .header t => some (some t) | _ => none) p.masters.header calls ∧
    r.masters.footer = Spec.latest (fun | .footer t => some (some t) | _ => none) p.masters.footer calls ∧
    r.masters.printDate = Spec.latest (fun | .printDate t => some t | _ => none) p.masters.printDate calls ∧
    r.masters.printPageNumbers = Spec.latest (fun | .printPageNumbers t => some t | _ => none) p.masters.printPageNumbers calls := by
  refine ⟨fold_latest _ _ (·.what) ?_ calls p, fold_latest _ _ (·.colorMode) ?_ calls p, fold_latest _ _ (·.handoutLayout) ?_ calls p,
    fold_latest _ _ (·.frameSlides) ?_ calls p, fold_latest _ _ (·.scaleToFit) ?_ calls p, fold_latest _ _ (·.includeHidden) ?_ calls p,
    fold_latest _ _ (·.portrait) ?_ calls p, fold_latest _ _ (·.masters.header) ?_ calls p, fold_latest _ _ (·.masters.footer) ?_ calls p,
    fold_latest _ _ (·.masters.printDate) ?_ calls p, fold_latest _ _ (·.masters.printPageNumbers) ?_ calls p⟩ <;>
  · intro s c
    cases c <;> rfl

/-- **C176.** Signatures: the name is that of the signer, and each other field has the value of the last call for it. -/
theorem C176_signature (name : Str) (calls : List SignCall) :
    let r := calls.foldl setSign (newSignature name)
    r.name = name ∧
    r.email = Spec.latest (fun | .email t => some (some t) | _ => none) none calls ∧
    r.organization = Spec.latest (fun | .organization t => some (some t) | _ => none) none calls ∧
    r.title = Spec.latest (fun | .title t => some (some t) | _ => none) none calls ∧
    r.hash = Spec.latest (fun | .hash t => some t | _ => none) .sha256 calls ∧
    r.date = Spec.latest (fun | .date t => some (some t) | _ => none) none calls ∧
    r.commitment = Spec.latest (fun | .commitment t => some t | _ => none) .created calls ∧
    r.comments = Spec.latest (fun | .comments t => some (some t) | _ => none) none calls := by
  refine ⟨?_, fold_latest setSign _ (·.email) ?_ calls (newSignature name), fold_latest setSign _ (·.organization) ?_ calls (newSignature name), fold_latest setSign _ (·.title) ?_ calls (newSignature name),
    fold_latest setSign _ (·.hash) ?_ calls (newSignature name), fold_latest setSign _ (·.date) ?_ calls (newSignature name), fold_latest setSign _ (·.commitment) ?_ calls (newSignature name),
    fold_latest setSign _ (·.comments) ?_ calls (newSignature name)⟩
  · have h : ∀ (calls : List SignCall) (g : Signature), (calls.foldl setSign g).name = g.name := by
      intro calls
      induction calls with
      | nil => intro g; rfl
      | cons c l ih =>
        intro g
        rw [List.foldl_cons, ih]
        cases c <;> rfl
    exact h calls _
  all_goals
    intro s c
    cases c <;> rfl

/-- **C176.** Fonts: typeface, style and relationship are those given, and each other field has the value of the last call for it. -/
theorem C176_font (typeface rid : Str) (style : FontStyle) (calls : List FontCall) :
    let r := calls.foldl setFont (newFont typeface style rid)
    r.font.typeface = typeface ∧ r.font.style = style ∧ r.font.relationshipId = rid ∧
    r.charset = Spec.latest (fun | .charset t => some t | _ => none) .ansi calls ∧
    r.panose = Spec.latest (fun | .panose t => some (some t) | _ => none) none calls ∧
    r.pitchFamily = Spec.latest (fun | .pitchFamily t => some t | _ => none) 34 calls := by
  have h : ∀ (calls : List FontCall) (g : FontIn), (calls.foldl setFont g).font = g.font := by
    intro calls
    induction calls with
    | nil => intro g; rfl
    | cons c l ih =>
      intro g
      rw [List.foldl_cons, ih]
      cases c <;> rfl
  refine ⟨by simp only [h]; rfl, by simp only [h]; rfl, by simp only [h]; rfl, fold_latest setFont _ (·.charset) ?_ calls (newFont typeface style rid),
    fold_latest setFont _ (·.panose) ?_ calls (newFont typeface style rid), fold_latest setFont _ (·.pitchFamily) ?_ calls (newFont typeface style rid)⟩ <;>
  · intro s c
    cases c <;> rfl

/-- The points of a call. -/
def Spec.pointsOf : PointCall → List (Int × Int)
  | .point x y => [(x, y)]
  | .points l => l

theorem addPoints_points (s : Stroke) (c : PointCall) : addPoints s c = { s with points := s.points ++ Spec.pointsOf c } := by
  cases c with
  | point x y => rfl
  | points l =>
    show List.foldl _ s l = { s with points := s.points ++ l }
    induction l generalizing s with
    | nil => simp
    | cons p l ih => rw [List.foldl_cons, ih]; simp

/-- **C176.** A stroke has all its points in the order they were added, one by one or many at once, and keeps its pen. -/
theorem C176_points (s : Stroke) (calls : List PointCall) :
    calls.foldl addPoints s = { s with points := s.points ++ calls.flatMap Spec.pointsOf } := by
  induction calls generalizing s with
  | nil => simp
  | cons c l ih => rw [List.foldl_cons, ih, addPoints_points]; simp

/-- **C176.** The ink of a slide is the strokes added since the last time it was cleared, in order. -/
theorem C176_ink (before : List InkCall) (strokes : List Stroke) (l : List Stroke) :
    (strokes.map InkCall.add).foldl setInk l = l ++ strokes ∧
      (before ++ InkCall.clear :: strokes.map InkCall.add).foldl setInk l = strokes := by
  have h : ∀ (strokes l : List Stroke), (strokes.map InkCall.add).foldl setInk l = l ++ strokes := by
    intro strokes
    induction strokes with
    | nil => intro l; simp
    | cons a m ih => intro l; rw [List.map_cons, List.foldl_cons, ih]; simp [setInk]
  refine ⟨h strokes l, ?_⟩
  rw [List.foldl_append, List.foldl_cons, h]
  rfl

/-- **C176.** The fonts of a typeface are found in order and no others, and the sizes of all typefaces add up. -/
theorem C176_find (l m : List (FontIn × Bytes)) (typeface : Str) :
    (∀ f, f ∈ findFonts l typeface ↔ f ∈ l ∧ f.1.font.typeface = typeface) ∧ (findFonts l typeface).Sublist l ∧
      totalSize (l ++ m) = totalSize l + totalSize m ∧ (∀ f : FontIn × Bytes, totalSize [f] = f.2.length) ∧
      totalSize (findFonts l typeface) + totalSize (l.filter fun f => f.1.font.typeface ≠ typeface) = totalSize l := by
  refine ⟨fun f => by simp [findFonts], List.filter_sublist, by simp [totalSize], fun f => by simp [totalSize], ?_⟩
  induction l with
  | nil => rfl
  | cons a l ih =>
    unfold findFonts totalSize at ih ⊢
    by_cases h : a.1.font.typeface = typeface
    · simp only [List.filter_cons, h, decide_true, if_true, ne_eq, not_true, decide_false, Bool.false_eq_true, if_false, List.map_cons,
        List.sum_cons]
      simp only [ne_eq] at ih
      omega
    · simp only [List.filter_cons, h, decide_true, if_true, ne_eq, not_false_eq_true, decide_false, Bool.false_eq_true, if_false, List.map_cons,
        List.sum_cons]
      simp only [ne_eq] at ih
      omega

/-- **C176.** Names: the layout of handouts names its number of slides, a style says what it is, and hashes have different names. -/
theorem C176_names (l : HandoutLayout) (s : FontStyle) (a b : HashAlgorithm) :
    handoutName l = c!"handout" ++ dec l.perPage ∧ (isBold s = true ↔ s ∈ [.bold, .boldItalic]) ∧
      (isItalic s = true ↔ s ∈ [.italic, .boldItalic]) ∧ (hashName a = hashName b → a = b) := by
  refine ⟨?_, ?_, ?_, ?_⟩
  · cases l <;> decide +kernel
  · cases s <;> decide
  · cases s <;> decide
  · cases a <;> cases b <;> decide +kernel

/-- **C176.** The kiosk preset is what its methods give. -/
theorem C176_kiosk : SlideShow.kioskMode = [ShowCall.showType .kiosk, .looping true, .withoutNarration true].foldl setShow SlideShow.new := rfl

/-- **C176 does not hold in full.** New settings and default settings differ: print settings made by `new` are scaled to fit the paper and
those made by `default` are not, and the media controls of a slide show are shown only with `new`. The texts written differ. -/
theorem C176_default_violated :
    newPrint.scaleToFit = true ∧ ({} : PrintSettings).scaleToFit = false ∧ fmt newPrint.toPrnPr ≠ fmt ({} : PrintSettings).toPrnPr ∧
      SlideShow.new.mediaControls = true ∧ ({} : SlideShow).mediaControls = false ∧ fmt SlideShow.new.toXml ≠ fmt ({} : SlideShow).toXml := by
  decide +kernel

/-! ### Examples -/

example : ([PrintCall.header c!"a", .what .notes, .header c!"b"].foldl setPrint newPrint).masters.header = some c!"b" := by decide

example : ([SignCall.hash .sha512, .date c!"d", .hash .sha1].foldl setSign (newSignature c!"n")).hash = .sha1 := by decide

example : ([ShowCall.penColor c!"#00ff00"].foldl setShow .new).penColor = c!"00FF00" := by decide +kernel

end PptRs.Props
