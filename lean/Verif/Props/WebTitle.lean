import Verif.Props.WebLost

/-!
# C143: title and description of a page
-/

namespace PptRs.Props

open PptRs PptRs.Web PptRs.Spec

/-- The first element of a page, in document order, with a property. -/
def FirstWith (p : Dom → Prop) (doc e : Dom) : Prop :=
  p e ∧ ∃ pre post, doc.elements = pre ++ e :: post ∧ ∀ x ∈ pre, ¬ p x

/-- An element of some name. -/
def ElNamed (n : Str) (e : Dom) : Prop := e.name = n

/-- A `meta` element about something. -/
def About (key value : Str) (e : Dom) : Prop := e.name = c!"meta" ∧ attr e.attrs key = some value

theorem first_some {p : Dom → Prop} {b : Dom → Bool} (hb : ∀ x, b x = true ↔ p x) {doc e : Dom} :
    FirstWith p doc e ↔ first b doc = some e := by
  unfold FirstWith first
  rw [List.find?_eq_some_iff_append, hb]
  constructor
  · rintro ⟨h, pre, post, h1, h2⟩
    exact ⟨h, pre, post, h1, fun x hx => by
      simpa using fun hc => h2 x hx ((hb x).1 hc)⟩
  · rintro ⟨h, pre, post, h1, h2⟩
    exact ⟨h, pre, post, h1, fun x hx hp => by simpa [(hb x).2 hp] using h2 x hx⟩

theorem first_named {n : Str} {doc e : Dom} : FirstWith (ElNamed n) doc e ↔ first (fun d => d.name = n) doc = some e :=
  first_some (by simp [ElNamed])

theorem first_about {k v : Str} {doc e : Dom} : FirstWith (About k v) doc e ↔ first (isMeta k v) doc = some e :=
  first_some (by simp [About, isMeta])

theorem parsePage_head {low : Str → Str} {cfg : ParserConfig} {doc : Dom} {url : Str} {p : ParsedPage}
    (h : parsePage low cfg doc url = some (.ok p)) :
    p.page.title = extractTitle doc ∧ p.page.description = extractDescription doc := by
  unfold parsePage at h
  cases hm : mainElement doc with
  | none => rw [hm] at h; simp at h
  | some m =>
    rw [hm] at h
    simp only [Option.map_eq_some_iff] at h
    obtain ⟨f, -, h⟩ := h
    split at h
    · simp at h
    · simp only [Except.ok.injEq] at h
      subst h
      exact ⟨rfl, rfl⟩

theorem blank_first {n : Str} {doc : Dom} (h : ∀ e, FirstWith (ElNamed n) doc e → trim (domText e) = []) :
    ((first (fun d => d.name = n) doc).bind fun d => filled (trim d.textOf)) = none := by
  cases hf : first (fun d => d.name = n) doc with
  | none => rfl
  | some e =>
    have := h e (first_named.2 hf)
    rw [← textOf_eq] at this
    simp [filled, this]

/-- **C143**: the title of a page is the text of its first `title` element. If that has none, it is the text of the first
`h1` element. If that has none either, it is the content of the first `og:title` element; without any of them the page is
"Untitled". -/
theorem C143_title (low : Str → Str) (cfg : ParserConfig) (doc : Dom) (url : Str) (p : ParsedPage)
    (h : parsePage low cfg doc url = some (.ok p)) :
    (∀ e, FirstWith (ElNamed c!"title") doc e → trim (domText e) ≠ [] → p.page.title = trim (domText e)) ∧
    ((∀ e, FirstWith (ElNamed c!"title") doc e → trim (domText e) = []) →
      (∀ e, FirstWith (ElNamed c!"h1") doc e → trim (domText e) ≠ [] → p.page.title = trim (domText e)) ∧
      ((∀ e, FirstWith (ElNamed c!"h1") doc e → trim (domText e) = []) →
        (∀ e c, FirstWith (About c!"property" c!"og:title") doc e → attr e.attrs c!"content" = some c → p.page.title = trim c) ∧
        ((∀ e, FirstWith (About c!"property" c!"og:title") doc e → attr e.attrs c!"content" = none) →
          p.page.title = c!"Untitled"))) := by
  rw [(parsePage_head h).1]
  unfold extractTitle
  refine ⟨fun e he ht => ?_, fun h1 => ⟨fun e he ht => ?_, fun h2 => ⟨fun e c he hc => ?_, fun h3 => ?_⟩⟩⟩
  · rw [← textOf_eq] at ht ⊢
    rw [first_named.1 he]
    simp [filled, ht]
  · rw [blank_first h1, first_named.1 he]
    rw [← textOf_eq] at ht ⊢
    simp [filled, ht]
  · rw [blank_first h1, blank_first h2, first_about.1 he]
    simp [hc]
  · rw [blank_first h1, blank_first h2]
    cases hf : first (isMeta c!"property" c!"og:title") doc with
    | none => rfl
    | some e => simp [h3 e (first_about.2 hf)]

/-- What a `meta` element says, if it says something. -/
def Says (key value : Str) (doc : Dom) (s : Str) : Prop :=
  ∃ e c, FirstWith (About key value) doc e ∧ attr e.attrs c!"content" = some c ∧ s = trim c ∧ s ≠ []

theorem says_iff {k v : Str} {doc : Dom} {s : Str} : Says k v doc s ↔
    ((first (isMeta k v) doc).bind fun d => (attr d.attrs c!"content").bind fun c => filled (trim c)) = some s := by
  unfold Says filled
  simp only [Option.bind_eq_some_iff, first_about]
  constructor
  · rintro ⟨e, c, h1, h2, h3, h4⟩
    exact ⟨e, h1, c, h2, by rw [if_neg (h3 ▸ h4), h3]⟩
  · rintro ⟨e, h1, c, h2, h3⟩
    split at h3
    · simp at h3
    · rename_i hn
      simp only [Option.some.injEq] at h3
      exact ⟨e, c, h1, h2, h3.symm, h3 ▸ hn⟩

/-- **C143**: the description of a page is what its first `description` element says, otherwise what its first
`og:description` element says, otherwise there is none. -/
theorem C143_description (low : Str → Str) (cfg : ParserConfig) (doc : Dom) (url : Str) (p : ParsedPage)
    (h : parsePage low cfg doc url = some (.ok p)) :
    (∀ s, Says c!"name" c!"description" doc s → p.page.description = some s) ∧
    ((¬ ∃ s, Says c!"name" c!"description" doc s) →
      (∀ s, Says c!"property" c!"og:description" doc s → p.page.description = some s) ∧
      ((¬ ∃ s, Says c!"property" c!"og:description" doc s) → p.page.description = none)) := by
  rw [(parsePage_head h).2]
  unfold extractDescription
  have none_of : ∀ k v, (¬ ∃ s, Says k v doc s) →
      ((first (isMeta k v) doc).bind fun d => (attr d.attrs c!"content").bind fun c => filled (trim c)) = none := by
    intro k v hn
    rw [Option.eq_none_iff_forall_ne_some]
    exact fun s hs => hn ⟨s, says_iff.2 hs⟩
  refine ⟨fun s hs => ?_, fun h1 => ⟨fun s hs => ?_, fun h2 => ?_⟩⟩
  · rw [says_iff.1 hs]; rfl
  · rw [none_of _ _ h1, says_iff.1 hs]; rfl
  · rw [none_of _ _ h1, none_of _ _ h2]; rfl

/-- **C143 does not hold in full.** A page without `title` and `h1` whose `og:title` is blank gets an empty title instead of
"Untitled". -/
theorem C143_blank_title_violated (low : Str → Str) (cfg : ParserConfig) (doc : Dom) (url : Str) (p : ParsedPage)
    (h : parsePage low cfg doc url = some (.ok p))
    (h1 : ∀ e, FirstWith (ElNamed c!"title") doc e → trim (domText e) = [])
    (h2 : ∀ e, FirstWith (ElNamed c!"h1") doc e → trim (domText e) = [])
    (e : Dom) (c : Str) (he : FirstWith (About c!"property" c!"og:title") doc e) (hc : attr e.attrs c!"content" = some c)
    (hb : trim c = []) : p.page.title = [] := by
  rw [((((C143_title low cfg doc url p h).2 h1).2 h2).1 e c he hc), hb]

/-- A page with a blank `og:title` and a description. -/
def blankTitled : Dom :=
  .el c!"html" [] [.el c!"head" [] [.el c!"meta" [(c!"property", c!"og:title"), (c!"content", c!" ")] [],
    .el c!"meta" [(c!"property", c!"og:description"), (c!"content", c!" About fruit ")] []],
    .el c!"body" [] [.el c!"p" [] [.text (List.replicate 101 'a')]]]

/-- The premises of `C143_title`, `C143_description` and `C143_blank_title_violated` can be met. -/
example : ∃ p, parsePage id {} blankTitled c!"http://a" = some (.ok p) ∧ p.page.title = [] ∧
    p.page.description = some c!"About fruit" := by
  have hn : ∀ n, n ∉ [c!"html", c!"head", c!"meta", c!"body", c!"p"] →
      ∀ e, FirstWith (ElNamed n) blankTitled e → trim (domText e) = [] := by
    rintro n hn e ⟨h, pre, post, h1, -⟩
    have : e ∈ blankTitled.elements := by rw [h1]; simp
    exfalso
    unfold ElNamed at h
    subst h
    revert hn
    simp only [blankTitled, Dom.elements, elementsOf, List.append_nil, List.cons_append, List.nil_append, List.mem_cons,
      List.not_mem_nil, or_false] at this
    rcases this with rfl | rfl | rfl | rfl | rfl | rfl <;> simp [Dom.name]
  have hp : ∃ p, parsePage id {} blankTitled c!"http://a" = some (.ok p) := by
    have : (match parsePage id {} blankTitled c!"http://a" with | some (.ok _) => true | _ => false) = true := by decide +kernel
    split at this
    · rename_i p hp; exact ⟨p, hp⟩
    · simp at this
  obtain ⟨p, hp⟩ := hp
  refine ⟨p, hp, ?_, ?_⟩
  · exact C143_blank_title_violated id {} blankTitled _ p hp (hn _ (by decide)) (hn _ (by decide))
      (.el c!"meta" [(c!"property", c!"og:title"), (c!"content", c!" ")] []) c!" "
      (first_about.2 (by rfl)) (by decide +kernel) (by decide +kernel)
  · exact ((C143_description id {} blankTitled _ p hp).2 (by
      rintro ⟨s, hs⟩
      have := says_iff.1 hs
      revert this
      have : first (isMeta c!"name" c!"description") blankTitled = none := by rfl
      simp [this])).1 _ (says_iff.2 (by decide +kernel))

end PptRs.Props
