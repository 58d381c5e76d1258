import Verif.Model.PresBuild
import Verif.Props.SettingsBuild

/-!
# Building presentations (C177)
-/

namespace PptRs.Props

open PptRs PptRs.Settings PptRs.PresBuild

variable {Θ σ : Type}

/-- The slides a call adds. -/
def Spec.slidesOf : PresCall Θ σ → List σ
  | .slide s => [s]
  | .presentation q => q.slides
  | _ => []

/-- The title a call gives. -/
def Spec.titleOf : PresCall Θ σ → Option Str
  | .title s => some s
  | _ => none

/-- The settings a call gives. -/
def Spec.settingsOf : PresCall Θ σ → Option (PresSettings Θ)
  | .settings s => some s
  | _ => none

/-- The theme a call gives. -/
def Spec.themeOf : PresCall Θ σ → Option Θ
  | .theme t => some t
  | _ => none

/-- **C177.** After any calls, the slides are those before and those added, one by one or from other presentations, in the order of the
calls, and the title is the last one given. -/
theorem C177_slides (p : Pres Θ σ) (calls : List (PresCall Θ σ)) :
    (calls.foldl Pres.apply p).slides = p.slides ++ calls.flatMap Spec.slidesOf ∧
      (calls.foldl Pres.apply p).title = Spec.latest Spec.titleOf p.title calls := by
  refine ⟨?_, fold_latest _ _ (·.title) (by intro s c; cases c <;> rfl) calls p⟩
  induction calls generalizing p with
  | nil => simp
  | cons c l ih =>
    rw [List.foldl_cons, ih]
    cases c <;> simp [Pres.apply, Spec.slidesOf]

/-- **C177.** A new presentation is empty, and one with a title is a new one that was given it. -/
theorem C177_new (t : Str) : (Pres.withTitle t : Pres Θ σ) = Pres.apply {} (.title t) ∧ ({} : Pres Θ σ).slides = [] ∧
    ({} : Pres Θ σ).title = [] ∧ ({} : Pres Θ σ).settings.isNone = true := ⟨rfl, rfl, rfl, rfl⟩

/-- **C177.** A presentation that is never given settings or a theme keeps its settings. -/
theorem C177_plain (p : Pres Θ σ) (calls : List (PresCall Θ σ)) (h : ∀ c ∈ calls, Spec.settingsOf c = none ∧ Spec.themeOf c = none) :
    (calls.foldl Pres.apply p).settings = p.settings := by
  induction calls generalizing p with
  | nil => rfl
  | cons c l ih =>
    rw [List.foldl_cons, ih _ fun x hx => h x (List.mem_cons_of_mem _ hx)]
    have := h c List.mem_cons_self
    cases c <;> first | rfl | simp [Spec.settingsOf, Spec.themeOf] at this

theorem themes_settings (calls : List (PresCall Θ σ)) : ∀ (p : Pres Θ σ) (s : PresSettings Θ), p.settings = some s →
    (∀ c ∈ calls, Spec.settingsOf c = none) →
    (calls.foldl Pres.apply p).settings = some { s with theme := Spec.latest (fun c => (Spec.themeOf c).map some) s.theme calls } := by
  induction calls with
  | nil => intro p s hp _; exact hp
  | cons c l ih =>
    intro p s hp h
    have hl := fun x hx => h x (List.mem_cons_of_mem _ hx)
    have hc := h c List.mem_cons_self
    rw [List.foldl_cons]
    unfold Spec.latest
    rw [List.reverse_cons, List.findSome?_append]
    cases c with
    | settings t => simp [Spec.settingsOf] at hc
    | theme t =>
      rw [ih (p.apply (.theme t)) { s with theme := some t } (by simp [Pres.apply, hp]) hl]
      unfold Spec.latest
      cases l.reverse.findSome? (fun c => (Spec.themeOf c).map some) <;> rfl
    | title t =>
      rw [ih (p.apply (.title t)) s hp hl]
      unfold Spec.latest
      cases l.reverse.findSome? (fun c => (Spec.themeOf c).map some) <;> rfl
    | slide t =>
      rw [ih (p.apply (.slide t)) s hp hl]
      unfold Spec.latest
      cases l.reverse.findSome? (fun c => (Spec.themeOf c).map some) <;> rfl
    | presentation t =>
      rw [ih (p.apply (.presentation t)) s hp hl]
      unfold Spec.latest
      cases l.reverse.findSome? (fun c => (Spec.themeOf c).map some) <;> rfl

/-- **C177.** The settings are those last given, with the last theme given after them in place of their own; nothing else of them is
changed by any other call. -/
theorem C177_settings (p : Pres Θ σ) (before after : List (PresCall Θ σ)) (s : PresSettings Θ) (h : ∀ c ∈ after, Spec.settingsOf c = none) :
    ((before ++ .settings s :: after).foldl Pres.apply p).settings =
      some { s with theme := Spec.latest (fun c => (Spec.themeOf c).map some) s.theme after } := by
  rw [List.foldl_append, List.foldl_cons]
  exact themes_settings after _ s rfl h

/-- **C177.** A theme that is given without settings is the only setting. -/
theorem C177_theme (p : Pres Θ σ) (before after : List (PresCall Θ σ)) (t : Θ) (hp : p.settings = none)
    (hb : ∀ c ∈ before, Spec.settingsOf c = none ∧ Spec.themeOf c = none) (ha : ∀ c ∈ after, Spec.settingsOf c = none ∧ Spec.themeOf c = none) :
    ((before ++ .theme t :: after).foldl Pres.apply p).settings = some { theme := some t } := by
  rw [List.foldl_append, List.foldl_cons, C177_plain _ after ha]
  show some { (before.foldl Pres.apply p).settings.getD {} with theme := some t } = _
  rw [C177_plain _ before hb, hp]
  rfl

/-- **C177.** Settings have, after any calls, the last value given for each, and are empty exactly if there were no calls. -/
theorem C177_set (s : PresSettings Θ) (calls : List (SettingsCall Θ)) :
    let r := calls.foldl PresSettings.set s
    r.theme = Spec.latest (fun | .theme t => some (some t) | _ => none) s.theme calls ∧
    r.slideShow = Spec.latest (fun | .slideShow t => some (some t) | _ => none) s.slideShow calls ∧
    r.print = Spec.latest (fun | .print t => some (some t) | _ => none) s.print calls ∧
    r.fonts = Spec.latest (fun | .fonts t => some (some t) | _ => none) s.fonts calls ∧
    r.signature = Spec.latest (fun | .signature t => some (some t) | _ => none) s.signature calls ∧
    r.template = Spec.latest (fun | .template t => some (some t) | _ => none) s.template calls ∧
    (r.any = true ↔ s.any = true ∨ calls ≠ []) := by
  refine ⟨fold_latest _ _ (·.theme) ?_ calls s, fold_latest _ _ (·.slideShow) ?_ calls s, fold_latest _ _ (·.print) ?_ calls s,
    fold_latest _ _ (·.fonts) ?_ calls s, fold_latest _ _ (·.signature) ?_ calls s, fold_latest _ _ (·.template) ?_ calls s, ?_⟩
  iterate 6
    · intro s c
      cases c <;> rfl
  induction calls generalizing s with
  | nil => simp
  | cons c l ih =>
    have h : (s.set c).any = true := by cases c <;> simp [PresSettings.set, PresSettings.any]
    have := ih (s.set c)
    simp only [h, true_or, iff_true] at this
    simp [this]

/-- **C177.** Empty settings have no settings, and settings have some if any field is given. -/
theorem C177_any (s : PresSettings Θ) :
    s.any = false ↔ s = {} := by
  obtain ⟨a, b, c, d, e, f⟩ := s
  cases a <;> cases b <;> cases c <;> cases d <;> cases e <;> cases f <;> simp [PresSettings.any]

/-- **C177.** A presentation is built exactly if it has slides and the generator accepts its title, slides and settings; both ways of
building it agree. Saving writes what is built to the path, or nothing; no other file is changed. -/
theorem C177_build (gen : Str → List σ → Option (PresSettings Θ) → Option Bytes) (p : Pres Θ σ) (writes : Str → Bool)
    (broken files : Str → Option Bytes) (path : Str) :
    (∀ b, p.build gen = some b ↔ p.slides ≠ [] ∧ gen p.title p.slides p.settings = some b) ∧ p.intoBytes gen = p.build gen ∧
      ((p.save gen writes broken files path).1 = true ↔ (p.build gen).isSome = true ∧ writes path = true) ∧
      ((p.save gen writes broken files path).1 = true → (p.save gen writes broken files path).2 path = p.build gen) ∧
      (∀ q, q ≠ path → (p.save gen writes broken files path).2 q = files q) ∧
      (p.build gen = none → (p.save gen writes broken files path).2 = files) := by
  refine ⟨fun b => ?_, rfl, ?_, ?_, ?_, ?_⟩
  · unfold Pres.build
    by_cases h : p.slides = [] <;> simp [h]
  all_goals
    unfold Pres.save
    cases hb : p.build gen with
    | none => simp
    | some b => cases hw : writes path <;> simp +contextual

/-- **C177.** Adding presentations one after another is adding all their slides, and it does not matter how they are put together first. -/
theorem C177_added (p q r : Pres Θ σ) :
    ((p.apply (.presentation q)).apply (.presentation r)) = p.apply (.presentation (q.apply (.presentation r))) ∧
      p.apply (.presentation {}) = p ∧ (p.apply (.presentation q)).slides.length = p.slides.length + q.slides.length := by
  refine ⟨by simp [Pres.apply], by simp [Pres.apply], by simp [Pres.apply]⟩

/-- **C177 does not hold in full.** A theme that is given before settings is lost, though the same calls in the other order keep both, and of
a presentation that is added the title and all settings, with its theme, fonts and template, are lost. -/
theorem C177_lost_violated (p q : Pres Θ σ) (t : Θ) (s : PresSettings Θ) (hs : s.theme = none) :
    (((p.apply (.theme t)).apply (.settings s)).settings.bind (·.theme)) = none ∧
      (((p.apply (.settings s)).apply (.theme t)).settings.bind (·.theme)) = some t ∧
      (∀ t' s', p.apply (.presentation { q with title := t', settings := s' }) = p.apply (.presentation q)) := by
  refine ⟨?_, rfl, fun _ _ => rfl⟩
  simpa [Pres.apply] using hs

/-! ### Examples -/

example : ([PresCall.slide 1, .title c!"a", .presentation { slides := [2, 3] }, .slide 4, .title c!"b"].foldl Pres.apply
    ({} : Pres Nat Nat)).slides = [1, 2, 3, 4] := by decide

example : (Pres.withTitle c!"t" : Pres Nat Nat).build (fun _ _ _ => some []) = none := by decide

example : (([PresCall.settings {}, .theme 7, .slide 1, .theme 8].foldl Pres.apply ({} : Pres Nat Nat)).settings.bind (·.theme)) = some 8 := by
  decide

end PptRs.Props
