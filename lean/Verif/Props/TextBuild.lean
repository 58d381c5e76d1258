import Verif.Model.TextBuild
import Verif.Props.SettingsBuild

/-!
# Building runs, paragraphs and frames of text (C179)
-/

namespace PptRs.Props

open PptRs PptRs.Text PptRs.TextBuild

/-- **C179.** Formats: each field has the value of the last call that sets it; sub- and superscript put each other out. -/
theorem C179_format (f : Format) (calls : List Setter) :
    calls.foldl Format.set f =
      { bold := Spec.latest (fun | .bold => some true | _ => none) f.bold calls
        italic := Spec.latest (fun | .italic => some true | _ => none) f.italic calls
        underline := Spec.latest (fun | .underline => some true | _ => none) f.underline calls
        strikethrough := Spec.latest (fun | .strikethrough => some true | _ => none) f.strikethrough calls
        color := Spec.latest (fun | .color c => some (some (cleanColor c)) | _ => none) f.color calls
        highlight := Spec.latest (fun | .highlight c => some (some (cleanColor c)) | _ => none) f.highlight calls
        fontSize := Spec.latest (fun | .fontSize n => some (some n) | _ => none) f.fontSize calls
        fontFamily := Spec.latest (fun | .fontFamily s => some (some s) | _ => none) f.fontFamily calls
        subscript := Spec.latest (fun | .subscript => some true | .superscript => some false | _ => none) f.subscript calls
        superscript := Spec.latest (fun | .subscript => some false | .superscript => some true | _ => none) f.superscript calls } := by
  rw [← fold_latest Format.set _ (·.bold) ?_ calls f, ← fold_latest Format.set _ (·.italic) ?_ calls f,
    ← fold_latest Format.set _ (·.underline) ?_ calls f, ← fold_latest Format.set _ (·.strikethrough) ?_ calls f,
    ← fold_latest Format.set _ (·.color) ?_ calls f, ← fold_latest Format.set _ (·.highlight) ?_ calls f,
    ← fold_latest Format.set _ (·.fontSize) ?_ calls f, ← fold_latest Format.set _ (·.fontFamily) ?_ calls f,
    ← fold_latest Format.set _ (·.subscript) ?_ calls f, ← fold_latest Format.set _ (·.superscript) ?_ calls f]
  all_goals
    intro s k
    cases k <;> rfl

/-- **C179.** Runs and formatted texts: the text stays, and the format is the last one given as a whole (or the default)
with the settings after it. -/
theorem C179_run (text : Str) (calls : List RunCall) (later : List Setter) :
    (∀ f, (calls ++ RunCall.format f :: later.map RunCall.set).foldl callRun (newRun text) = ⟨text, later.foldl Format.set f⟩) ∧
    (later.map RunCall.set).foldl callRun (newRun text) = ⟨text, later.foldl Format.set {}⟩ := by
  have keep : ∀ (l : List Setter) (r : Run), (l.map RunCall.set).foldl callRun r = ⟨r.text, l.foldl Format.set r.format⟩ := by
    intro l
    induction l with
    | nil => intro r; rfl
    | cons k l ih => intro r; rw [List.map_cons, List.foldl_cons, ih]; rfl
  have same : ∀ (l : List RunCall) (r : Run), (l.foldl callRun r).text = r.text := by
    intro l
    induction l with
    | nil => intro r; rfl
    | cons k l ih => intro r; rw [List.foldl_cons, ih]; cases k <;> rfl
  refine ⟨fun f => ?_, keep _ _⟩
  rw [List.foldl_append, List.foldl_cons, keep]
  simp only [callRun, same, newRun]

/-- A spacing in points that can be written in hundredths of a point in 32 bits. -/
def Spec.SpacingFits : ParaCall → Prop
  | .before n => n * 100 < 2 ^ 32
  | .after n => n * 100 < 2 ^ 32
  | _ => True

/-- **C179.** Paragraphs: if all spacings fit, the runs are those added, in order, and every other field has the value of
the last call for it, levels cut off at 8. -/
theorem C179_paragraph (p : Paragraph) (calls : List ParaCall) (h : ∀ k ∈ calls, Spec.SpacingFits k) :
    calls.foldlM callPara p = some
      { runs := p.runs ++ calls.filterMap (fun | .run r => some r | .text s => some ⟨s, {}⟩ | _ => none)
        align := Spec.latest (fun | .align a => some a | _ => none) p.align calls
        level := Spec.latest (fun | .level n => some (min n 8) | _ => none) p.level calls
        bullet := Spec.latest (fun | .bullet => some true | _ => none) p.bullet calls
        before := Spec.latest (fun | .before n => some (some (n * 100)) | _ => none) p.before calls
        after := Spec.latest (fun | .after n => some (some (n * 100)) | _ => none) p.after calls
        line := p.line } := by
  have step : ∀ {α : Type} (f : ParaCall → Option α) (a : α) (k : ParaCall) (l : List ParaCall),
      Spec.latest f a (k :: l) = Spec.latest f ((f k).getD a) l := by
    intro α f a k l
    unfold Spec.latest
    rw [List.reverse_cons, List.findSome?_append]
    cases l.reverse.findSome? f with
    | some a => rfl
    | none => cases hc : f k <;> simp [hc]
  induction calls generalizing p with
  | nil => simp [Spec.latest]
  | cons k l ih =>
    have hk := h k List.mem_cons_self
    have hl := fun k hk => h k (List.mem_cons_of_mem _ hk)
    rw [List.foldlM_cons]
    cases k with
    | before n =>
      have e : n * 100 < 4294967296 := hk
      simp only [callPara, Paragraph.spacingBefore, if_pos e, Option.bind_eq_bind, Option.bind_some]
      rw [ih _ hl]; simp [step]
    | after n =>
      have e : n * 100 < 4294967296 := hk
      simp only [callPara, Paragraph.spacingAfter, if_pos e, Option.bind_eq_bind, Option.bind_some]
      rw [ih _ hl]; simp [step]
    | _ =>
      simp only [callPara, Option.bind_eq_bind, Option.bind_some]
      rw [ih _ hl]; simp [step, newRun, Paragraph.withLevel]

/-- **C179.** Frames: the paragraphs are those added, in order; anchor and margins are the last given; text still wraps. -/
theorem C179_frame (f : TextFrame) (calls : List FrameCall) :
    let r := calls.foldl callFrame f
    r.paragraphs = f.paragraphs ++ calls.filterMap (fun | .paragraph p => some p | .text s => some { runs := [⟨s, {}⟩] } | _ => none) ∧
    r.anchor = Spec.latest (fun | .anchor a => some a | _ => none) f.anchor calls ∧
    (r.left, r.right, r.top, r.bottom) =
      Spec.latest (fun | .margins l r t b => some (l, r, t, b) | _ => none) (f.left, f.right, f.top, f.bottom) calls ∧
    r.wrap = f.wrap := by
  refine ⟨?_, fold_latest callFrame _ (·.anchor) ?_ calls f,
    fold_latest callFrame _ (fun f => (f.left, f.right, f.top, f.bottom)) ?_ calls f, ?_⟩
  · induction calls generalizing f with
    | nil => simp
    | cons k l ih =>
      rw [List.foldl_cons, ih]
      cases k <;> simp [callFrame, TextFrame.addText, Paragraph.ofText]
  · intro s k
    cases k <;> rfl
  · intro s k
    cases k <;> rfl
  · induction calls generalizing f with
    | nil => rfl
    | cons k l ih =>
      rw [List.foldl_cons, ih]
      cases k <;> rfl

/-- **C179.** A frame made of a text is an empty frame to which the text is added. -/
theorem C179_of_text (s : Str) : frameOfText s = callFrame {} (.text s) ∧ (frameOfText s).paragraphs = [{ runs := [⟨s, {}⟩] }] :=
  ⟨rfl, rfl⟩

/-- **C179 does not hold in full.** A spacing of more than 42949672 points panics when it is set on a `Paragraph` (the
product with 100 overflows), wherever it is among the calls before it that succeed. -/
theorem C179_spacing_violated (p : Paragraph) (calls later : List ParaCall) (h : ∀ k ∈ calls, Spec.SpacingFits k) (n : Nat)
    (hn : 42949672 < n) : (calls ++ .before n :: later).foldlM callPara p = none ∧
      (calls ++ .after n :: later).foldlM callPara p = none := by
  have e : ¬ n * 100 < 4294967296 := by omega
  rw [List.foldlM_append, List.foldlM_append, C179_paragraph p calls h]
  constructor
  · simp only [Option.bind_eq_bind, Option.bind_some, List.foldlM_cons, callPara, Paragraph.spacingBefore, if_neg e, Option.bind_none]
  · simp only [Option.bind_eq_bind, Option.bind_some, List.foldlM_cons, callPara, Paragraph.spacingAfter, if_neg e, Option.bind_none]

/-- **C179 does not hold in full.** The space between lines of a `Paragraph` and the wrapping of a `TextFrame` have no
method: no calls change them. -/
theorem C179_unreachable_violated (p r : Paragraph) (calls : List ParaCall) (h : calls.foldlM callPara p = some r)
    (f : TextFrame) (fcalls : List FrameCall) : r.line = p.line ∧ (fcalls.foldl callFrame f).wrap = f.wrap := by
  refine ⟨?_, (C179_frame f fcalls).2.2.2⟩
  induction calls generalizing p with
  | nil => cases h; rfl
  | cons k l ih =>
    rw [List.foldlM_cons] at h
    cases hk : callPara p k with
    | none => rw [hk] at h; cases h
    | some q =>
      rw [hk] at h
      rw [ih q h]
      cases k <;> simp only [callPara, Paragraph.spacingBefore, Paragraph.spacingAfter, Paragraph.withLevel] at hk
      all_goals first
        | (cases hk; rfl)
        | (split at hk
           · cases hk; rfl
           · cases hk)

example : ([.subscript, .superscript, .color c!"#ff0000"].foldl Format.set {}) = { superscript := true, color := some c!"FF0000" } := by decide
example : [.text c!"a", .level 12, .before 3, .bullet].foldlM callPara {} =
    some { runs := [⟨c!"a", {}⟩], level := 8, before := some 300, bullet := true } := by decide
example : Spec.SpacingFits (.before 12) := by unfold Spec.SpacingFits; decide
example : ([.text c!"a", .margins 1 2 3 4, .anchor .middle].foldl callFrame {}).bottom = 4 := rfl

end PptRs.Props
