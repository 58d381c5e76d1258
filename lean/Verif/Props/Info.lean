import Verif.Model.Info
import Verif.Props.ReportJson
import Verif.Props.Whole

/-!
# C157: information about a file
-/

namespace PptRs.Props

open PptRs PptRs.Spec PptRs.Info PptRs.Handlers PptRs.Import PptRs.Whole

/-! ### Reading what is printed -/

theorem jsonText_serdeChar (c : Char) (r : Str) :
    jsonText (serdeChar c ++ r) = (jsonText r).map fun p => (c :: p.1, p.2) := by
  have key : ∀ n (d : Char), c.toNat = n → d.toNat = n → c = d := by
    intro n d h1 h2
    have := congrArg Char.ofNat (h1.trans h2.symm)
    rwa [Char.ofNat_toNat, Char.ofNat_toNat] at this
  unfold serdeChar
  split
  · subst_vars; exact jsonText_escape r (by decide) (by decide)
  split
  · subst_vars; exact jsonText_escape r (by decide) (by decide)
  split
  · have := key 8 (Char.ofNat 8) ‹_› (by decide); subst this; exact jsonText_escape r (by decide) (by decide)
  split
  · have := key 9 '\t' ‹_› (by decide); subst this; exact jsonText_escape r (by decide) (by decide)
  split
  · have := key 10 '\n' ‹_› (by decide); subst this; exact jsonText_escape r (by decide) (by decide)
  split
  · have := key 12 (Char.ofNat 12) ‹_› (by decide); subst this; exact jsonText_escape r (by decide) (by decide)
  split
  · have := key 13 '\r' ‹_› (by decide); subst this; exact jsonText_escape r (by decide) (by decide)
  split
  · have h : c.toNat < 160 := by omega
    simp only [hex4, List.cons_append, List.nil_append, jsonText, jsonUnicode_hex4 _ h,
      Option.bind_some, Char.ofNat_toNat]
  · exact jsonText_plain r ‹_› ‹_› ‹_›

theorem jsonText_serdeString (s r : Str) : jsonText (s.flatMap serdeChar ++ '"' :: r) = some (s, r) := by
  induction s with
  | nil => rfl
  | cons c s ih => rw [List.flatMap_cons, List.append_assoc, jsonText_serdeChar, ih]; rfl

theorem readsJson_serde (s : Str) : ReadsJson (serdeString s) (.str s) := by
  intro r n _ hn
  cases n with
  | zero => omega
  | succ n =>
    have e : serdeString s ++ r = '"' :: (s.flatMap serdeChar ++ '"' :: r) := by simp [serdeString]
    rw [e, jsonValue]
    have : skipJson ('"' :: (s.flatMap serdeChar ++ '"' :: r)) = '"' :: (s.flatMap serdeChar ++ '"' :: r) :=
      if_neg (by decide)
    rw [this]
    simp only [jsonText_serdeString, Option.map_some]

/-- A member of an object as `serde_json` writes it. -/
def serdeMember (w k s : Str) : Str := w ++ serdeString k ++ c!": " ++ s

theorem readsSerdeMember {w k s : Str} {v : Json} (hw : w.all isJsonSpace = true) (h : ReadsJson s v) (n : Nat) (hn : 2 * s.length + 1 ≤ n) (r : Str) (hr : JsonEnd r) :
    jsonMembers (n + 1) (serdeMember w k s ++ r) = match skipJson r with
      | ',' :: r => (jsonMembers n r).map fun q => ((k, v) :: q.1, q.2)
      | '}' :: r => some ([(k, v)], r)
      | _ => none := by
  have e : serdeMember w k s ++ r = w ++ '"' :: (k.flatMap serdeChar ++ '"' :: (':' :: (' ' :: s ++ r))) := by
    simp [serdeMember, serdeString]
  rw [e, jsonMembers, skipJson_end hw (by decide)]
  simp only [jsonText_serdeString, Option.bind_some]
  have e2 : skipJson (':' :: (' ' :: s ++ r)) = ':' :: (' ' :: s ++ r) := if_neg (by decide)
  rw [e2]
  simp only
  have e3 : jsonValue n (' ' :: s ++ r) = some (v, r) := by
    have := h r n hr hn
    cases n with
    | zero => omega
    | succ n =>
      rw [jsonValue] at this ⊢
      have : skipJson (' ' :: s ++ r) = skipJson (s ++ r) := if_pos (by decide)
      rw [this]
      assumption
  rw [e3]
  rfl

theorem readsSerde_one {w k s u : Str} {v : Json} (hw : w.all isJsonSpace = true) (h : ReadsJson s v) (hu : u.all isJsonSpace = true) :
    ReadsMembers (serdeMember w k s ++ (u ++ ['}'])) [(k, v)] := by
  intro r n hn
  cases n with
  | zero => omega
  | succ n =>
    simp only [List.length_append, List.length_cons, List.length_nil, serdeMember] at hn
    have e : serdeMember w k s ++ (u ++ ['}']) ++ r = serdeMember w k s ++ (u ++ '}' :: r) := by simp
    rw [e, readsSerdeMember hw h n (by omega) _ (jsonEnd_space hu (by decide) _), skipJson_end hu (by decide)]
    rfl

theorem readsSerde_more {w k s t : Str} {v : Json} {l : List (Str × Json)} (hw : w.all isJsonSpace = true) (h : ReadsJson s v) (ht : ReadsMembers t l) :
    ReadsMembers (serdeMember w k s ++ (',' :: t)) ((k, v) :: l) := by
  intro r n hn
  cases n with
  | zero => omega
  | succ n =>
    simp only [List.length_append, List.length_cons, serdeMember] at hn
    have e : serdeMember w k s ++ (',' :: t) ++ r = serdeMember w k s ++ (',' :: (t ++ r)) := by simp
    rw [e, readsSerdeMember hw h n (by omega) _ (fun c hc => by cases hc; rfl)]
    have e2 : skipJson (',' :: (t ++ r)) = ',' :: (t ++ r) := if_neg (by decide)
    rw [e2]
    simp only
    rw [ht r n (by omega)]
    rfl

theorem newLine_space (d : Nat) : (newLine d).all isJsonSpace = true := by
  simp only [newLine, List.all_cons, List.all_replicate, Bool.and_eq_true]
  exact ⟨by decide, by simp [isJsonSpace]⟩

theorem readsJson_emptyObj : ReadsJson c!"{}" (.obj []) := by
  intro r n _ hn
  cases n with
  | zero => omega
  | succ n => rfl

mutual
theorem reads_pretty : ∀ (d : Nat) (v : Json), ReadsJson (pretty d v) v
  | d, .null => by rw [pretty]; exact readsJson_null
  | d, .bool b => by rw [pretty]; exact readsJson_bool b
  | d, .num n => by rw [pretty]; exact readsJson_num n
  | d, .str s => by rw [pretty]; exact readsJson_serde s
  | d, .arr [] => by rw [pretty, prettyElems]; exact readsJson_emptyArr (w := []) rfl
  | d, .arr (v :: l) => by rw [pretty]; exact readsJson_arr (reads_elems d v l)
  | d, .obj [] => by rw [pretty, prettyMembers]; exact readsJson_emptyObj
  | d, .obj ((k, v) :: l) => by rw [pretty]; exact readsJson_obj (reads_members d k v l)
termination_by _ v => sizeOf v
theorem reads_elems : ∀ (d : Nat) (v : Json) (l : List Json), ReadsElems (prettyElems d (v :: l)) (v :: l)
  | d, v, [] => by
    rw [prettyElems, List.append_assoc]
    exact readsElems_space (newLine_space _) (readsElems_one (reads_pretty (d + 1) v) (newLine_space _))
  | d, v, x :: l => by
    rw [prettyElems, List.append_assoc]
    · exact readsElems_space (newLine_space _) (readsElems_more (w := []) (reads_pretty (d + 1) v) rfl (reads_elems d x l))
    · simp
termination_by _ v l => sizeOf (v :: l)
theorem reads_members : ∀ (d : Nat) (k : Str) (v : Json) (l : List (Str × Json)),
    ReadsMembers (prettyMembers d ((k, v) :: l)) ((k, v) :: l)
  | d, k, v, [] => by
    rw [prettyMembers]
    exact readsSerde_one (newLine_space _) (reads_pretty (d + 1) v) (newLine_space _)
  | d, k, v, (k', v') :: l => by
    rw [prettyMembers]
    · exact readsSerde_more (newLine_space _) (reads_pretty (d + 1) v) (reads_members d k' v' l)
    · simp
termination_by _ k v l => sizeOf ((k, v) :: l)
end

/-- **C157**: a value that is printed is read as the same value, whatever characters its texts
have and however deep it is. -/
theorem C157_pretty (v : Json) : jsonDocument (pretty 0 v) = some v := by
  unfold jsonDocument
  have h := reads_pretty 0 v [] (2 * (pretty 0 v).length + 2) (by intro c hc; cases hc) (by omega)
  rw [List.append_nil] at h
  rw [h, Option.bind_some]
  exact if_pos rfl

/-! ### The tool -/

/-- A member of an object that was read. -/
def jsonField (k : Str) : Json → Option Json
  | .obj l => (l.find? fun p => p.1 = k).map (·.2)
  | _ => none

/-- The elements of an array that was read. -/
def jsonList : Option Json → List Json
  | some (.arr l) => l
  | _ => []

/-- **C157**: the answer of the tool is a JSON document with the title, the number of slides and, for
each slide in order, its number, its title, the number of its bullets and what else it has; it is
an error exactly if the file cannot be loaded. -/
theorem C157_tool (w : World) (path : Str) :
    (w.load path = none ↔ ∃ t, getInfo w path = .error t) ∧
    ∀ p, w.load path = some p → ∃ t v, getInfo w path = .ok t ∧ jsonDocument t = some v ∧
      jsonField c!"title" v = some (.str p.title) ∧
      jsonField c!"slide_count" v = some (.num p.slides.length) ∧
      (jsonList (jsonField c!"slides" v)).map (jsonField c!"title") =
        p.slides.map (fun s => some (.str s.text.title)) ∧
      (jsonList (jsonField c!"slides" v)).map (jsonField c!"bullet_count") =
        p.slides.map (fun s => some (.num s.text.bullets.length)) ∧
      (jsonList (jsonField c!"slides" v)).map (jsonField c!"slide_number") =
        (List.range p.slides.length).map (fun i => some (.num (i + 1))) ∧
      ∀ i (h : i < p.slides.length) name, Json.str name ∈
        jsonList (((jsonList (jsonField c!"slides" v))[i]?).bind (jsonField c!"features")) ↔
          name = c!"table" ∧ p.slides[i].text.table ≠ none ∨
          name = c!"charts" ∧ p.slides[i].charts ≠ [] ∨ name = c!"shapes" ∧ p.slides[i].shapes ≠ [] := by
  unfold getInfo
  constructor
  · cases w.load path with
    | none => exact ⟨fun _ => ⟨_, rfl⟩, fun _ => rfl⟩
    | some p => exact ⟨fun h => (nomatch h), fun ⟨t, h⟩ => (nomatch h)⟩
  · intro p hp
    rw [hp]
    refine ⟨_, _, rfl, C157_pretty _, rfl, rfl, ?_, ?_, ?_, ?_⟩
    · show (p.slides.mapIdx slideInfo).map _ = _
      apply List.ext_getElem
      · simp
      · intro i h1 h2
        simp only [List.getElem_map, List.getElem_mapIdx]
        rfl
    · show (p.slides.mapIdx slideInfo).map _ = _
      apply List.ext_getElem
      · simp
      · intro i h1 h2
        simp only [List.getElem_map, List.getElem_mapIdx]
        rfl
    · show (p.slides.mapIdx slideInfo).map _ = _
      apply List.ext_getElem
      · simp
      · intro i h1 h2
        simp only [List.getElem_map, List.getElem_mapIdx, List.getElem_range]
        rfl
    · intro i hi name
      have e : (jsonList (jsonField c!"slides" (infoValue p)))[i]? = some (slideInfo i p.slides[i]) := by
        show (p.slides.mapIdx slideInfo)[i]? = _
        simp [hi]
      rw [e]
      show Json.str name ∈ ((features _ false _ _).map Json.str) ↔ _
      generalize p.slides[i] = s
      have hm : ∀ l : List Str, Json.str name ∈ l.map Json.str ↔ name ∈ l := by
        intro l
        simp
      rw [hm]
      unfold features
      cases ht : s.text.table <;> cases hc : s.charts <;> cases hs : s.shapes <;> simp

/-- **C157**: the tool shows a file that was written from slides with text and tables: its title, and
the title and the number of bullets of each slide. -/
theorem C157_file_partial (w : World) (path : Str) (secs : Nat) {title : Str} {l : List PageIn} {st : BuildSettings}
    (desc : Str → Str) (other : PartName → Bytes) (ht : st.template = none) (hf : st.fonts = none) (h0 : l ≠ [])
    (hn : l.length + 1 < 4294967296) (hs : Readable l) (h1 : '&' ∉ title) (h2 : '<' ∉ title)
    (hl : ∀ s ∈ l, s.text.layout = .titleAndContent ∧ s.text.table = none)
    (hb : ¬ BlankText title ∧ ∀ s ∈ l, ¬ BlankText s.text.title ∧ ∀ t ∈ s.text.texts, ¬ BlankText t)
    (hw : w.load path = (opened (written secs title l st desc other)).map ofLoaded) :
    ∃ t v, getInfo w path = .ok t ∧ jsonDocument t = some v ∧
      jsonField c!"title" v = some (.str title) ∧
      jsonField c!"slide_count" v = some (.num l.length) ∧
      (jsonList (jsonField c!"slides" v)).map (jsonField c!"title") = l.map (fun s => some (.str s.text.title)) ∧
      (jsonList (jsonField c!"slides" v)).map (jsonField c!"bullet_count") =
        l.map (fun s => some (.num s.text.texts.length)) := by
  rw [C144_open_partial secs desc other ht hf h0 hn hs h1 h2, Option.map_some] at hw
  obtain ⟨t, v, a1, a2, a3, a4, a5, a6, -⟩ := (C157_tool w path).2 _ hw
  refine ⟨t, v, a1, a2, ?_, ?_, ?_, ?_⟩
  · rw [a3]
    simp [ofLoaded, visible, hb.1]
  · rw [a4]
    simp [ofLoaded]
  · rw [a5]
    simp only [ofLoaded, List.map_map]
    refine List.map_congr_left fun s h => ?_
    simp [expectedSlide, plainSlide, (hl s h).1, visible, (hb.2 s h).1]
  · rw [a6]
    simp only [ofLoaded, List.map_map]
    refine List.map_congr_left fun s h => ?_
    have e : s.text.texts.filter (fun t => ¬ BlankText t) = s.text.texts :=
      List.filter_eq_self.mpr fun t ht => by simpa using (hb.2 s h).2 t ht
    have hsb : showsBullets s.text = true := by simp [showsBullets, (hl s h).1, (hl s h).2]
    simp only [Function.comp_apply, expectedSlide, hsb, if_true, e]
    simp [plainSlide]

/-- **C157 does not hold in full.** The tool says for each slide whether it has pictures and charts, but the presentation it
looks at is loaded without them: whatever file is opened, no slide is said to have pictures or charts. -/
theorem C157_pictures_violated (w : World) (path : Str) (archive : List (Str × Bytes))
    (hw : w.load path = (opened archive).map ofLoaded) (t : Str) (ht : getInfo w path = .ok t) :
    ∃ v, jsonDocument t = some v ∧ ∀ s ∈ jsonList (jsonField c!"slides" v),
      Json.str c!"charts" ∉ jsonList (jsonField c!"features" s) ∧
      Json.str c!"images" ∉ jsonList (jsonField c!"features" s) := by
  cases ho : opened archive with
  | none =>
    rw [ho] at hw
    unfold getInfo at ht
    rw [hw] at ht
    exact (nomatch ht)
  | some p =>
    rw [ho, Option.map_some] at hw
    obtain ⟨t', v, a1, a2, -, a4, a5, -, -, a8⟩ := (C157_tool w path).2 _ hw
    rw [ht] at a1
    cases a1
    refine ⟨v, a2, ?_⟩
    intro s hs
    obtain ⟨i, hi, rfl⟩ := List.mem_iff_getElem.mp hs
    have hlen := congrArg List.length a5
    rw [List.length_map, List.length_map] at hlen
    have hi' : i < (ofLoaded p).slides.length := by rw [← hlen]; exact hi
    have key := a8 i hi'
    rw [List.getElem?_eq_getElem hi] at key
    have hc : (ofLoaded p).slides[i].charts = [] := by simp [ofLoaded]
    constructor
    · intro hm
      have := (key _).mp hm
      rw [hc] at this
      simp at this
    · intro hm
      have := (key _).mp hm
      simp at this

/-! ### The command -/

/-- **C157**: the command prints the path and the size of every file. -/
theorem C157_command_file (path : Str) (size : Nat) (modified : Str) (isFile : Bool) (content : Option Str) :
    c!"Path:     " ++ path ∈ infoCommand path size modified isFile content ∧
    c!"Size:     " ++ dec size ++ c!" bytes" ∈ infoCommand path size modified isFile content := by
  unfold infoCommand
  constructor <;> exact List.mem_append_left _ (by simp)

/-- **C157**: of an XML text it prints the title, if there is one and nothing looks like one before it. -/
theorem C157_command_title (path : Str) (size : Nat) (modified : Str) (isFile : Bool) (a t b : Str)
    (h : c!"<?xml" <+: a) (ha : splitOnce? c!"<title>" (a ++ c!"<title>" ++ (t ++ c!"</title>" ++ b)) = some (a, t ++ c!"</title>" ++ b))
    (ht : '<' ∉ t) :
    c!"Title: " ++ t ∈ infoCommand path size modified isFile (some (a ++ c!"<title>" ++ (t ++ c!"</title>" ++ b))) := by
  unfold infoCommand presentationLines
  have hs : startsWith c!"<?xml" (a ++ c!"<title>" ++ (t ++ c!"</title>" ++ b)) = true := by
    obtain ⟨r, rfl⟩ := h
    rfl
  have hb : between c!"<title>" c!"</title>" (a ++ c!"<title>" ++ (t ++ c!"</title>" ++ b)) = some t := by
    unfold between
    rw [ha]
    show ((splitOnce? c!"</title>" (t ++ c!"</title>" ++ b)).map (·.1)) = some t
    rw [splitOnce?_append_of_notMem ht]
    rfl
  simp only [hs, if_true, hb]
  exact List.mem_append_right _ (List.mem_append_left _ (List.mem_append_right _ (by simp)))

/-- **C157 does not hold in full.** `pptcli info` looks for the title and the number of slides in a file that begins with
`<?xml`. A presentation is an archive and begins with `PK`: nothing about it is printed, whatever is in it. -/
theorem C157_command_violated (path : Str) (size : Nat) (modified : Str) (isFile : Bool) (content : Option Str)
    (h : ∀ s ∈ content, c!"PK" <+: s) :
    infoCommand path size modified isFile content = infoCommand path size modified isFile none := by
  unfold infoCommand
  congr 1
  cases content with
  | none => rfl
  | some s =>
    obtain ⟨r, rfl⟩ := h s rfl
    rfl

example : pretty 0 (infoValue ⟨c!"A \"b\"", [{ text := SlideText.new c!"One\n" }]⟩) =
    c!"{\n  \"slide_count\": 1,\n  \"slides\": [\n    {\n      \"bullet_count\": 0,\n      \"features\": [],\n      \"slide_number\": 1,\n      \"title\": \"One\\n\"\n    }\n  ],\n  \"title\": \"A \\\"b\\\"\"\n}" := by
  decide +kernel

/-- The premises of `C157_file_partial` can be met. -/
example (w : World) (hw : w.load c!"a.pptx" = (opened (written 0 c!"Talk"
      [{ text := [c!"one"].foldl SlideText.addBullet (SlideText.new c!"A & B") }] .none id fun _ => [])).map ofLoaded) :
    ∃ t v, getInfo w c!"a.pptx" = .ok t ∧ jsonDocument t = some v ∧
    jsonField c!"slide_count" v = some (.num 1) := by
  obtain ⟨t, v, a1, a2, -, a4, -⟩ := C157_file_partial w c!"a.pptx" 0 id (fun _ => []) (st := .none) (title := c!"Talk")
    (l := [{ text := [c!"one"].foldl SlideText.addBullet (SlideText.new c!"A & B") }]) rfl rfl (by simp) (by decide)
    (by
      intro s hs
      rw [List.mem_singleton] at hs
      subst hs
      exact addBullets_readable c!"A & B" [c!"one"] none .titleAndContent (by simp))
    (by decide) (by decide)
    (by intro s hs; rw [List.mem_singleton] at hs; subst hs; exact ⟨rfl, rfl⟩)
    ⟨by decide, by intro s hs; rw [List.mem_singleton] at hs; subst hs; decide⟩ hw
  exact ⟨t, v, a1, a2, a4⟩

example : c!"Title: Talk" ∈ infoCommand c!"a.xml" 40 c!"1s ago" true (some c!"<?xml version=\"1.0\"?><title>Talk</title>") :=
  C157_command_title _ _ _ _ c!"<?xml version=\"1.0\"?>" c!"Talk" [] ⟨_, rfl⟩ (by decide +kernel) (by decide)

end PptRs.Props
