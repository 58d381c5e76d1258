import Verif.Lemmas.ScanSlide
import Verif.Lemmas.DrawingParts

/-!
# What the validator finds in drawings
-/

namespace PptRs

open PptRs.Validate PptRs.Spec PptRs.Draw

variable {R : List Str}

/-! ### Quotation marks -/

/-- A quotation mark before something that is no id. -/
theorem QuotesOk.close {c : Char} {s : Str} (hc : c ≠ 'r') (h : QuotesOk R (c :: s)) : QuotesOk R ('"' :: c :: s) := by
  intro a b e
  cases a with
  | nil =>
    simp only [List.nil_append, List.cons.injEq, true_and] at e
    subst e
    refine .inl ?_
    simp [differ, hc.symm]
  | cons d a =>
    simp only [List.cons_append, List.cons.injEq] at e
    obtain ⟨rfl, e⟩ := e
    rcases h a b e with h | ⟨h1, h2⟩ | h
    · exact .inl h
    · refine .inr (.inl ⟨?_, ?_⟩) <;> rw [List.reverse_cons]
      · exact differ_append h1 _
      · exact differ_append h2 _
    · exact .inr (.inr h)

/-- A reference. -/
theorem QuotesOk.ref {v b : Str} (hv : v ∈ R) (hq : '"' ∉ v) (h : QuotesOk R ('"' :: b)) : QuotesOk R ('"' :: (v ++ '"' :: b)) := by
  intro a c e
  cases a with
  | nil =>
    simp only [List.nil_append, List.cons.injEq, true_and] at e
    exact .inr (.inr ⟨v, hv, hq, b, e.symm⟩)
  | cons d a =>
    simp only [List.cons_append, List.cons.injEq] at e
    obtain ⟨rfl, e⟩ := e
    rcases ((QuotesOk.of_notMem hq).append h) a c e with h | ⟨h1, h2⟩ | h
    · exact .inl h
    · refine .inr (.inl ⟨?_, ?_⟩) <;> rw [List.reverse_cons]
      · exact differ_append h1 _
      · exact differ_append h2 _
    · exact .inr (.inr h)

/-- The check of the quotation marks of a template. -/
def quotesParts : List Part → Bool
  | [] => true
  | .lit s :: l => quotesCheck [] s && quotesParts l
  | _ :: l => quotesParts l

theorem not_quote_esc (s : Str) : '"' ∉ escapeXml s := fun h => (mem_escapeXml h).2.2.1 rfl

theorem not_lt_esc (s : Str) : '<' ∉ escapeXml s := fun h => (mem_escapeXml h).1 rfl

theorem quotes_parts : ∀ {ps : List Part}, (∀ p ∈ ps, p.Ok) → quotesParts ps = true → QuotesOk R (fmt ps) := by
  intro ps
  induction ps with
  | nil => intro _ _; exact .of_notMem (by simp [fmt])
  | cons p ps ih =>
    intro ho h
    have e : fmt (p :: ps) = p.render ++ fmt ps := by simp [fmt]
    rw [e]
    have ho' : ∀ q ∈ ps, q.Ok := fun q hq => ho q (by simp [hq])
    cases p with
    | lit s =>
      simp only [quotesParts, Bool.and_eq_true] at h
      exact (quotesOk_of_check h.1).append (ih ho' h.2)
    | esc s => exact (QuotesOk.of_notMem (not_quote_esc s)).append (ih ho' h)
    | raw s =>
      have hp : Plain s := ho (.raw s) (by simp)
      exact (QuotesOk.of_notMem hp.2.2).append (ih ho' h)

/-! ### Elements with ids -/

/-- The literals of a template, searched for ids. -/
def scanParts : List Part → Option (List Str)
  | [] => some []
  | .lit s :: l =>
    match litScan (s.length + 1) s with
    | some a => (scanParts l).map (a ++ ·)
    | none => none
  | _ :: l => scanParts l

theorem scan_parts : ∀ {ps : List Part} {ids : List Str}, (∀ p ∈ ps, p.Ok) → scanParts ps = some ids → Scan (fmt ps) ids := by
  intro ps
  induction ps with
  | nil => intro ids _ h; cases h; exact .nil
  | cons p ps ih =>
    intro ids ho h
    have e : fmt (p :: ps) = p.render ++ fmt ps := by simp [fmt]
    rw [e]
    have ho' : ∀ q ∈ ps, q.Ok := fun q hq => ho q (by simp [hq])
    cases p with
    | lit s =>
      rw [scanParts] at h
      split at h
      · rename_i a ha
        obtain ⟨b, hb, rfl⟩ := Option.map_eq_some_iff.mp h
        exact (scan_of_lit ha).append (ih ho' hb)
      · cases h
    | esc s => exact (Scan.skip (noStart_of_notMem (not_lt_esc s))).append (ih ho' h)
    | raw s =>
      have hp : Plain s := ho (.raw s) (by simp)
      exact (Scan.skip (noStart_of_notMem hp.2.1)).append (ih ho' h)

/-- A template up to the first end of an element, and after it. -/
def cutClose : List Part → Option (List Part × List Part)
  | [] => none
  | .lit s :: l =>
    match splitOnce? c!"/>" s with
    | some (a, b) => some ([.lit a], .lit b :: l)
    | none => (cutClose l).map fun r => (.lit s :: r.1, r.2)
  | p :: l => (cutClose l).map fun r => (p :: r.1, r.2)

theorem cutClose_eq : ∀ {ps x b : List Part}, cutClose ps = some (x, b) → fmt ps = fmt x ++ c!"/>" ++ fmt b := by
  intro ps
  induction ps with
  | nil => intro x b h; cases h
  | cons p ps ih =>
    intro x b h
    have e : ∀ (q : Part) (l : List Part), fmt (q :: l) = q.render ++ fmt l := fun q l => by simp [fmt]
    have step : ∀ {p : Part}, ((cutClose ps).map fun r => (p :: r.1, r.2)) = some (x, b) → fmt (p :: ps) = fmt x ++ c!"/>" ++ fmt b := by
      intro p h
      obtain ⟨r, hr, he⟩ := Option.map_eq_some_iff.mp h
      cases he
      rw [e, e, ih hr]
      simp
    cases p with
    | lit s =>
      rw [cutClose] at h
      split at h
      · rename_i u v hs
        cases h
        have := splitOnce?_some hs
        simp only [e, Part.render]
        rw [this]
        simp [fmt]
      · exact step h
    | esc s => exact step h
    | raw s => exact step h

theorem cutClose_ok : ∀ {ps x b : List Part}, (∀ p ∈ ps, p.Ok) → cutClose ps = some (x, b) → ∀ p ∈ b, p.Ok := by
  intro ps
  induction ps with
  | nil => intro x b _ h; cases h
  | cons p ps ih =>
    intro x b ho h
    have ho' : ∀ q ∈ ps, q.Ok := fun q hq => ho q (by simp [hq])
    have step : ∀ {p : Part}, ((cutClose ps).map fun r => (p :: r.1, r.2)) = some (x, b) → ∀ p ∈ b, p.Ok := by
      intro p h
      obtain ⟨r, hr, he⟩ := Option.map_eq_some_iff.mp h
      cases he
      exact ih ho' hr
    cases p with
    | lit s =>
      rw [cutClose] at h
      split at h
      · cases h
        intro q hq
        rcases List.mem_cons.mp hq with rfl | hq
        · trivial
        · exact ho' q hq
      · exact step h
    | esc s => exact step h
    | raw s => exact step h

/-- A text without the beginning of an element with an id at its end. -/
def dropMark (s : Str) : Option Str := (stripPrefix? c!"<p:cNvPr id=\"".reverse s.reverse).map List.reverse

theorem dropMark_eq {s a : Str} (h : dropMark s = some a) : s = a ++ c!"<p:cNvPr id=\"" := by
  obtain ⟨r, hr, rfl⟩ := Option.map_eq_some_iff.mp h
  have := congrArg List.reverse (stripPrefix?_eq_some.mp hr)
  rw [List.reverse_reverse, List.reverse_append, List.reverse_reverse] at this
  exact this

/-- The beginning and the rest of a template with one element that has an id. -/
def frameCheck (s : Str) (rest : List Part) : Bool :=
  match dropMark s, cutClose rest with
  | some a, some (_, b) =>
    match litScan (a.length + 1) a, scanParts b with
    | some [], some [] => true
    | _, _ => false
  | _, _ => false

/-- The attributes after the id. -/
def frameAttrs (rest : List Part) : List Part := ((cutClose rest).map (·.1)).getD []

/-- The part of a template with one element that has an id. -/
theorem Scan.frame {s x' : Str} {id : Nat} {rest x : List Part} (ho : ∀ p ∈ rest, p.Ok) (ha : frameCheck s rest = true)
    (hc : frameAttrs rest = x) (hx : fmt x = '"' :: x') (hg : '>' ∉ x') : Scan (fmt (.lit s :: .num id :: rest)) [dec id] := by
  unfold frameCheck at ha
  split at ha
  · rename_i a y b ha' hc'
    split at ha
    · rename_i hs hb
      have ey : y = x := by rw [← hc, frameAttrs, hc']; rfl
      subst ey
      have e : fmt (.lit s :: .num id :: rest) = a ++ ((c!"<p:cNvPr id=\"" ++ dec id ++ '"' :: x' ++ c!"/>") ++ fmt b) := by
        have e2 : fmt (.lit s :: .num id :: rest) = s ++ (dec id ++ fmt rest) := by simp [fmt, Part.render, Part.num]
        rw [e2, cutClose_eq hc', hx, dropMark_eq ha']
        simp
      rw [e]
      have := (scan_of_lit hs).append ((Scan.drawing (not_mem_quote_dec id) (not_mem_gt_dec id) hg).append (scan_parts (cutClose_ok ho hc') hb))
      simpa using this
    · cases ha
  · cases ha

theorem seen_frame {s x' : Str} {id : Nat} {rest x : List Part} (ho : ∀ p ∈ rest, p.Ok) (ha : frameCheck s rest = true)
    (hc : frameAttrs rest = x) (hx : fmt x = '"' :: x') (hg : '>' ∉ x') (hq : quotesParts (.lit s :: .num id :: rest) = true) :
    Seen R (.lit s :: .num id :: rest) [dec id] := by
  refine ⟨.frame ho ha hc hx hg, quotes_parts ?_ hq⟩
  intro p hp
  simp only [List.mem_cons] at hp
  rcases hp with rfl | rfl | hp
  · trivial
  · exact plain_dec id
  · exact ho p hp

/-! ### Shapes -/

theorem seen_alpha (a : Option Nat) : Seen R (alphaXml a) [] := .whenSome fun _ _ => .parts (by parts_ok) (by krfl)

theorem seen_fill {f : Option ShapeFill} (h : ∀ x ∈ f, Plain x.color) : Seen R (fillXml f) [] := by
  refine .whenSome fun x hx => ?_
  have := h x hx
  exact ((Seen.parts (by parts_ok) (by krfl)).quiet (seen_alpha _)).quiet (.parts (by parts_ok) (by krfl))

theorem seen_stop {s : GradientStop} (h : Plain s.color) : Seen R (stopXml s) [] := by
  unfold stopXml
  exact ((Seen.parts (by parts_ok) (by krfl)).quiet (seen_alpha _)).quiet (.parts (by parts_ok) (by krfl))

theorem seen_gradient {l : List GradientStop} (ang : Nat) (h : ∀ x ∈ l, Plain x.color) : Seen R (gradientText l ang) [] := by
  unfold gradientText
  exact ((Seen.parts (by parts_ok) (by krfl)).quiet (.quietAll fun x hx => seen_stop (h x hx))).quiet (.parts (by parts_ok) (by krfl))

theorem seen_line {l : Option ShapeLine} (h : ∀ x ∈ l, Plain x.color) : Seen R (lineXml l) [] := by
  refine .whenSome fun x hx => ?_
  have := h x hx
  exact .parts (by parts_ok) (by krfl)

theorem seen_codeText (t : Str) : Seen R (codeTextXml t) [] := by
  unfold codeTextXml
  exact ((Seen.parts (by parts_ok) (by krfl)).quiet (.quietAll fun x _ => .parts (by unfold codeLineXml; parts_ok) (by krfl))).quiet
    (.parts (by parts_ok) (by krfl))

theorem seen_plainText {t : Str} {size : Nat} {color anchor align : Str} (hc : Plain color) (h1 : Plain anchor) (h2 : Plain align) :
    Seen R (plainTextXml t size color anchor align) [] := .parts (by unfold plainTextXml; parts_ok) (by krfl)

theorem seen_text {fontSize : Str → Nat → Nat → Nat} {text : Option Str} {w h : Nat} {fill : Option Str} {ps : List Part}
    (e : textXml fontSize text w h fill = some ps) : Seen R ps [] := by
  unfold textXml at e
  split at e
  · cases e
    exact .parts (by unfold noTextXml; parts_ok) (by krfl)
  · split at e
    · cases e; exact seen_codeText _
    · obtain ⟨c, hc, rfl⟩ := Option.map_eq_some_iff.mp e
      refine seen_plainText (plain_textColor hc) ?_ ?_ <;> split <;> (unfold Plain; decide)

theorem decInt_ne_nil (i : Int) : decInt i ≠ [] := by
  cases i with
  | ofNat n => exact dec_ne_nil n
  | negSucc n => simp [decInt]

theorem not_mem_eq_decInt (i : Int) : '=' ∉ decInt i := by
  cases i with
  | ofNat n => exact not_mem_dec (by decide)
  | negSucc n => simpa [decInt] using not_mem_dec (n := n + 1) (c := '=') (by decide)

theorem seen_rot {r : Option Int} {ps : List Part} (e : rotAttr r = some ps) : Seen R ps [] := by
  unfold rotAttr at e
  split at e
  · cases e; exact .nil
  · split at e
    · cases e
      exact .value (by decide) (by krfl) (plain_decInt _).2.1 (plain_decInt _).2.2 (not_mem_eq_decInt _) (decInt_ne_nil _)
    · cases e

/-! ### Links -/

/-- The attributes of a link. -/
def linkTail (h : Link) : List Part :=
  whenSome h.tooltip (fun t => t!" tooltip=\"{.esc t}\"") ++ whenSet h.highlight t!" highlightClick=\"1\""
    ++ whenSome (actionType h.action) (fun a => t!" action=\"{.raw a}\"") ++ t!"/>"

/-- A text that begins with something else than `r` and has only these references. -/
def Tail (R : List Str) (s : Str) : Prop := ∃ c t, s = c :: t ∧ c ≠ 'r' ∧ QuotesOk R s

theorem Tail.quote {s : Str} (h : Tail R s) : QuotesOk R ('"' :: s) := by
  obtain ⟨c, t, rfl, hc, hq⟩ := h
  exact hq.close hc

/-- An attribute before such a text. -/
theorem Tail.attr {lit v s : Str} {c : Char} (hc : c ≠ 'r') (hl : quotesCheck [] (c :: lit) = true) (hv : '"' ∉ v) (h : Tail R s) :
    Tail R (c :: lit ++ v ++ '"' :: s) :=
  ⟨c, lit ++ v ++ '"' :: s, by simp, hc, ((quotesOk_of_check hl).append (.of_notMem hv)).append h.quote⟩

theorem tail_link (h : Link) : Tail R (fmt (linkTail h)) := by
  unfold linkTail
  rw [fmt_append, fmt_append, fmt_append]
  have t0 : Tail R (fmt t!"/>") := ⟨'/', c!">", rfl, by decide, quotesOk_of_check (by decide)⟩
  have t1 : Tail R (fmt (whenSome (actionType h.action) fun a => t!" action=\"{.raw a}\"") ++ fmt t!"/>") := by
    cases ha : actionType h.action with
    | none => exact t0
    | some a =>
      have := Tail.attr (R := R) (lit := c!"action=\"") (c := ' ') (v := a) (by decide) (by decide) (plain_action ha).2.2 t0
      simpa [whenSome, fmt, Part.render] using this
  have t2 : Tail R (fmt (whenSet h.highlight t!" highlightClick=\"1\"") ++ (fmt (whenSome (actionType h.action) fun a => t!" action=\"{.raw a}\"") ++ fmt t!"/>")) := by
    cases h.highlight with
    | false => exact t1
    | true =>
      have := Tail.attr (R := R) (lit := c!"highlightClick=\"") (c := ' ') (v := c!"1") (by decide) (by decide) (by decide) t1
      simpa [whenSet, fmt, Part.render] using this
  rw [List.append_assoc, List.append_assoc]
  cases h.tooltip with
  | none => exact t2
  | some a =>
    have := Tail.attr (R := R) (lit := c!"tooltip=\"") (c := ' ') (v := escapeXml a) (by decide) (by decide) (not_quote_esc a) t2
    simpa [whenSome, fmt, Part.render] using this

theorem quotes_link {h : Link} {rid : Str} (hr : rid ∈ R) (hq : '"' ∉ rid) : QuotesOk R (fmt (linkXml h rid)) := by
  have e : fmt (linkXml h rid) = c!"<a:hlinkClick r:id=" ++ '"' :: (rid ++ '"' :: fmt (linkTail h)) := by
    simp [linkXml, linkTail, fmt, Part.render]
  rw [e]
  exact (quotesOk_of_check (by decide)).append (.ref hr hq (tail_link h).quote)

/-- The text of a link before its end. -/
def linkFront (h : Link) (rid : Str) : Str :=
  c!"<a:hlinkClick r:id=\"" ++ rid ++ c!"\"" ++ fmt (whenSome h.tooltip (fun t => t!" tooltip=\"{.esc t}\"") ++ whenSet h.highlight t!" highlightClick=\"1\""
    ++ whenSome (actionType h.action) (fun a => t!" action=\"{.raw a}\""))

theorem linkXml_front (h : Link) (rid : Str) : fmt (linkXml h rid) = linkFront h rid ++ c!"/>" := by
  simp [linkXml, linkFront, fmt, Part.render]

theorem not_gt_esc (s : Str) : '>' ∉ escapeXml s := fun h => (mem_escapeXml h).2.1 rfl

theorem not_gt_front {h : Link} {rid : Str} (hr : '>' ∉ rid) : '>' ∉ linkFront h rid := by
  unfold linkFront
  have h1 : '>' ∉ fmt (whenSome h.tooltip (fun t => t!" tooltip=\"{.esc t}\"")) := by
    cases h.tooltip with
    | none => simp [whenSome, fmt]
    | some t => simp [whenSome, fmt, Part.render, not_gt_esc]
  have h2 : '>' ∉ fmt (whenSet h.highlight t!" highlightClick=\"1\"") := by cases h.highlight <;> simp [whenSet, fmt, Part.render]
  have h3 : '>' ∉ fmt (whenSome (actionType h.action) (fun a => t!" action=\"{.raw a}\"")) := by
    cases h.action <;> simp [actionType, whenSome, fmt, Part.render]
  rw [fmt_append, fmt_append]
  simp [h1, h2, h3, hr]

theorem splitOnce?_closeLink {a x : Str} (ha : '/' ∉ a) (h : '>' ∉ x) (rest : Str) :
    splitOnce? c!"/>" (a ++ x ++ c!"/>" ++ rest) = some (a ++ x, rest) := by
  have e : a ++ x ++ c!"/>" ++ rest = a ++ (x ++ c!"/>" ++ rest) := by simp
  rw [e, splitOnce?_skipText (noStart_of_notMem ha), splitOnce?_close h]
  rfl

/-- An element with an id and an element inside it. -/
theorem Scan.linked {id : Nat} {x : Str} (h3 : '>' ∉ x) :
    Scan (c!"<p:cNvPr id=\"" ++ dec id ++ c!"\" name=\"Shape " ++ dec id ++ c!"\">" ++ x ++ c!"/>") [dec id] := by
  intro n rest hn
  cases n with
  | zero => simp at hn
  | succ n =>
    refine ⟨n, by simp at hn; omega, ?_⟩
    have e : c!"<p:cNvPr id=\"" ++ dec id ++ c!"\" name=\"Shape " ++ dec id ++ c!"\">" ++ x ++ c!"/>" ++ rest =
        ('<' :: c!"p:cNvPr") ++ (c!" id=\"" ++ dec id ++ c!"\" name=\"Shape " ++ dec id ++ c!"\">" ++ x ++ c!"/>" ++ rest) := by
      simp
    have e2 : splitOnce? ('<' :: c!"p:cNvPr") (c!"<p:cNvPr id=\"" ++ dec id ++ c!"\" name=\"Shape " ++ dec id ++ c!"\">" ++ x ++ c!"/>" ++ rest) =
        some ([], c!" id=\"" ++ dec id ++ c!"\" name=\"Shape " ++ dec id ++ c!"\">" ++ x ++ c!"/>" ++ rest) := by
      rw [e]
      exact splitOnce?_of_noStart (s := []) rfl
    have hd : '/' ∉ dec id := not_mem_dec (by decide)
    have e3 : cutElement ('<' :: c!"p:cNvPr" ++ (c!" id=\"" ++ dec id ++ c!"\" name=\"Shape " ++ dec id ++ c!"\">" ++ x ++ c!"/>" ++ rest)) =
        (c!"<p:cNvPr id=\"" ++ dec id ++ c!"\" name=\"Shape " ++ dec id ++ c!"\">" ++ x, c!"/>" ++ rest) := by
      have := splitOnce?_closeLink (a := c!"<p:cNvPr id=\"" ++ dec id ++ c!"\" name=\"Shape " ++ dec id ++ c!"\">") (x := x)
        (by simp [hd]) h3 rest
      unfold cutElement
      simp only [List.append_assoc, List.cons_append, List.nil_append] at this ⊢
      rw [this]
    have e4 : attrIn c!"id" (c!"<p:cNvPr id=\"" ++ dec id ++ c!"\" name=\"Shape " ++ dec id ++ c!"\">" ++ x) = [dec id] := by
      have := attrIn_of (attr := c!"id") (a := c!"<p:cNvPr ") (v := dec id) (b := c!" name=\"Shape " ++ dec id ++ c!"\">" ++ x) (by decide)
        (not_mem_quote_dec id) (by decide)
      simpa using this
    rw [extractLoop, e2]
    simp only
    rw [e3, e4, extractLoop_skip (s := c!"/>") (by decide)]

/-- The references of a link. -/
def linkRefsOf (l : Option Link) : List Str := (l.bind (·.rId)).toList

theorem seen_cnvpr {link : Option Link} {id : Nat} (h : ∀ l ∈ link, ∀ r ∈ l.rId, Plain r ∧ '>' ∉ r) (hR : ∀ r ∈ linkRefsOf link, r ∈ R) :
    Seen R (cnvprXml link id) [dec id] := by
  unfold cnvprXml
  split
  · rename_i k rid he
    obtain ⟨l, rfl, hl⟩ := Option.bind_eq_some_iff.mp he
    obtain ⟨r, hr, e⟩ := Option.map_eq_some_iff.mp hl
    cases e
    obtain ⟨hp, hg⟩ := h k rfl rid hr
    have hm : rid ∈ R := hR rid (by simp [linkRefsOf, hr])
    constructor
    · have e : fmt (t!"<p:cNvPr id=\"{.num id}\" name=\"Shape {.num id}\">" ++ linkXml k rid ++ t!"</p:cNvPr>") =
          (c!"<p:cNvPr id=\"" ++ dec id ++ c!"\" name=\"Shape " ++ dec id ++ c!"\">" ++ linkFront k rid ++ c!"/>") ++ c!"</p:cNvPr>" := by
        rw [fmt_append, fmt_append, linkXml_front]
        simp [fmt, Part.render, Part.num]
      rw [e]
      exact (Scan.linked (not_gt_front hg)).append (b := []) (scan_of_lit (n := 100) (by krfl))
    · rw [fmt_append, fmt_append]
      exact ((quotes_parts (by parts_ok) (by krfl)).append (quotes_link hm hp.2.2)).append (quotes_parts (by parts_ok) (by krfl))
  · refine seen_frame (x := [.lit c!"\" name=\"Shape ", .num id, .lit c!"\""]) (x' := c!" name=\"Shape " ++ dec id ++ c!"\"") (by parts_ok) (by krfl) (by krfl)
      (by simp [fmt, Part.render, Part.num]) (by simp [not_mem_gt_dec]) (by krfl)

theorem seen_shape {fontSize : Str → Nat → Nat → Nat} {s : Shape} {id : Nat} {ps : List Part} (hs : s.Safe)
    (hl : ∀ l ∈ s.link, ∀ r ∈ l.rId, '>' ∉ r) (hR : ∀ r ∈ linkRefsOf s.link, r ∈ R) (e : shapeXml fontSize s id = some ps) :
    Seen R ps [dec id] := by
  unfold shapeXml at e
  obtain ⟨fill, hf, e⟩ := Option.bind_eq_some_iff.mp e
  obtain ⟨text, ht, e⟩ := Option.bind_eq_some_iff.mp e
  obtain ⟨rot, hr, rfl⟩ := Option.map_eq_some_iff.mp e
  have hfill : Seen R fill [] := by
    unfold shapeFillXml at hf
    split at hf
    · rename_i g hg
      unfold gradientXml at hf
      obtain ⟨a, _, rfl⟩ := Option.map_eq_some_iff.mp hf
      exact seen_gradient a (hs.gradient g hg)
    · cases hf
      exact seen_fill hs.fill
  have hk := preset_plain s.kind
  unfold shapeText
  exact ((((((((Seen.parts (ids := []) (by parts_ok) (by krfl)).append
    (seen_cnvpr (id := id) (fun l hl' r hr => ⟨hs.link l hl' r hr, hl l hl' r hr⟩) hR)).append
    (.parts (ids := []) (by parts_ok) (by krfl))).append (seen_rot hr)).append (.parts (ids := []) (by parts_ok) (by krfl))).append
    hfill).append (seen_line hs.line)).append (.parts (ids := []) (by parts_ok) (by krfl))).append (seen_text ht) |>.append
    (.parts (ids := []) (by parts_ok) (by krfl))

/-! ### Pictures -/

theorem seen_effects (l : List ImageEffect) : Seen R (effectsXml l) [] := by
  unfold effectsXml
  split
  · exact .nil
  · exact ((Seen.parts (by parts_ok) (by krfl)).quiet
      (.quietAll fun x _ => by cases x <;> exact .parts (by unfold ImageEffect.toXml; parts_ok) (by krfl))).quiet
      (.parts (by parts_ok) (by krfl))

theorem seen_crop (c : Option Crop) : Seen R (cropXml c) [] := by
  refine .whenSome fun x _ => ?_
  unfold Crop.attrs
  exact ((Seen.parts (by parts_ok) (by krfl)).quiet (((Seen.whenSet (.number (by decide) (by krfl) _)).quiet
    (.whenSet (.number (by decide) (by krfl) _))).quiet (.whenSet (.number (by decide) (by krfl) _)) |>.quiet
    (.whenSet (.number (by decide) (by krfl) _)))).quiet (.parts (by parts_ok) (by krfl))

theorem seen_blip {rel : Nat} (h : c!"rId" ++ dec rel ∈ R) (c : Option Crop) : Seen R (blipFillXml rel c) [] := by
  have h0 : Seen R t!"<p:blipFill>\n<a:blip r:embed=\"rId{.num rel}\"/>" [] := by
    refine ⟨scan_parts (by parts_ok) (by krfl), ?_⟩
    have e : fmt t!"<p:blipFill>\n<a:blip r:embed=\"rId{.num rel}\"/>" =
        c!"<p:blipFill>\n<a:blip r:embed=" ++ '"' :: ((c!"rId" ++ dec rel) ++ '"' :: c!"/>") := by
      simp [fmt, Part.render, Part.num]
    rw [e]
    exact (quotesOk_of_check (by decide)).append (.ref h (by simp [not_mem_quote_dec]) (quotesOk_of_check (by decide)))
  unfold blipFillXml
  exact (h0.quiet (seen_crop c)).quiet (.parts (by parts_ok) (by krfl))

theorem seen_picture (p : Picture) {id rel : Nat} (h : c!"rId" ++ dec rel ∈ R) : Seen R (pictureXml p id rel) [dec id] := by
  have hh : Seen R (t!"<p:pic>\n<p:nvPicPr>\n<p:cNvPr id=\"{.num id}\" name=\"{.esc p.filename}\""
    ++ whenSome p.altText (fun a => t!" descr=\"{.esc a}\"")
    ++ t!"/>\n<p:cNvPicPr>\n<a:picLocks noChangeAspect=\"1\"/>\n</p:cNvPicPr>\n<p:nvPr/>\n</p:nvPicPr>\n") [dec id] := by
    have q0 : Tail R (c!"/>\n<p:cNvPicPr>\n<a:picLocks noChangeAspect=\"1\"/>\n</p:cNvPicPr>\n<p:nvPr/>\n</p:nvPicPr>\n") :=
      ⟨'/', _, rfl, by decide, quotesOk_of_check (by krfl)⟩
    cases p.altText with
    | none =>
      have e : fmt (t!"<p:pic>\n<p:nvPicPr>\n<p:cNvPr id=\"{.num id}\" name=\"{.esc p.filename}\""
          ++ whenSome none (fun a => t!" descr=\"{.esc a}\"")
          ++ t!"/>\n<p:cNvPicPr>\n<a:picLocks noChangeAspect=\"1\"/>\n</p:cNvPicPr>\n<p:nvPr/>\n</p:nvPicPr>\n") =
          c!"<p:pic>\n<p:nvPicPr>\n" ++ ((c!"<p:cNvPr id=\"" ++ dec id ++ '"' :: (c!" name=\"" ++ escapeXml p.filename ++ c!"\"") ++ c!"/>") ++
            c!"\n<p:cNvPicPr>\n<a:picLocks noChangeAspect=\"1\"/>\n</p:cNvPicPr>\n<p:nvPr/>\n</p:nvPicPr>\n") := by
        simp [fmt, Part.render, Part.num, whenSome]
      refine .of_str e ?_ ?_
      · exact (scan_of_lit (n := 100) (ids := []) (by krfl)).append ((Scan.drawing (not_mem_quote_dec id) (not_mem_gt_dec id)
          (by simp [not_gt_esc])).append (b := []) (scan_of_lit (n := 100) (by krfl)))
      · have t1 := ((quotesOk_of_check (R := R) (s := c!"<p:pic>\n<p:nvPicPr>\n<p:cNvPr id=\"") (by krfl)).append (.of_notMem (not_mem_quote_dec id))).append
          ((quotesOk_of_check (s := c!"\" name=\"") (by krfl)).append ((QuotesOk.of_notMem (not_quote_esc p.filename)).append q0.quote))
        simpa using t1
    | some a =>
      have e : fmt (t!"<p:pic>\n<p:nvPicPr>\n<p:cNvPr id=\"{.num id}\" name=\"{.esc p.filename}\""
          ++ whenSome (some a) (fun a => t!" descr=\"{.esc a}\"")
          ++ t!"/>\n<p:cNvPicPr>\n<a:picLocks noChangeAspect=\"1\"/>\n</p:cNvPicPr>\n<p:nvPr/>\n</p:nvPicPr>\n") =
          c!"<p:pic>\n<p:nvPicPr>\n" ++ ((c!"<p:cNvPr id=\"" ++ dec id ++ '"' :: (c!" name=\"" ++ escapeXml p.filename ++ c!"\" descr=\"" ++ escapeXml a ++ c!"\"") ++ c!"/>") ++
            c!"\n<p:cNvPicPr>\n<a:picLocks noChangeAspect=\"1\"/>\n</p:cNvPicPr>\n<p:nvPr/>\n</p:nvPicPr>\n") := by
        simp [fmt, Part.render, Part.num, whenSome]
      refine .of_str e ?_ ?_
      · exact (scan_of_lit (n := 100) (ids := []) (by krfl)).append ((Scan.drawing (not_mem_quote_dec id) (not_mem_gt_dec id)
          (by simp [not_gt_esc])).append (b := []) (scan_of_lit (n := 100) (by krfl)))
      · have t1 := ((quotesOk_of_check (R := R) (s := c!"<p:pic>\n<p:nvPicPr>\n<p:cNvPr id=\"") (by krfl)).append (.of_notMem (not_mem_quote_dec id))).append
          ((quotesOk_of_check (s := c!"\" name=\"") (by krfl)).append ((QuotesOk.of_notMem (not_quote_esc p.filename)).append
          ((quotesOk_of_check (s := c!"\" descr=\"") (by krfl)).append ((QuotesOk.of_notMem (not_quote_esc a)).append q0.quote))))
        simpa using t1
  unfold pictureXml
  exact (((hh.append (seen_blip h p.crop)).append (.parts (ids := []) (by parts_ok) (by krfl))).append (seen_effects _)).append
    (.parts (ids := []) (by parts_ok) (by krfl))

/-! ### Connectors -/

theorem seen_connector {c : Connector} (h : Plain c.line.color) (id : Nat) : Seen R (connectorXml c id) [dec id] := by
  have a1 := plain_arrow c.startArrow
  have a2 := plain_arrow c.endArrow
  have a3 := plain_size c.arrowSize
  have a4 := plain_dash c.line.dash
  have a5 := plain_connectorKind c.kind
  have hh : Seen R t!"<p:cxnSp>\n<p:nvCxnSpPr>\n<p:cNvPr id=\"{.num id}\" name=\"Connector {.num id}\"/>\n<p:cNvCxnSpPr>" [dec id] :=
    seen_frame (x := [.lit c!"\" name=\"Connector ", .num id, .lit c!"\""]) (x' := c!" name=\"Connector " ++ dec id ++ c!"\"") (by parts_ok) (by krfl) (by krfl)
      (by simp [fmt, Part.render, Part.num]) (by simp [not_mem_gt_dec]) (by krfl)
  unfold connectorXml startLinkXml endLinkXml flipAttrs headXml tailXml labelXml
  exact (((((((((hh.append (.whenSome fun _ _ => .parts (by parts_ok) (by krfl))).append
    (.whenSome fun _ _ => .parts (by parts_ok) (by krfl))).append (.parts (ids := []) (by parts_ok) (by krfl))).append
    ((Seen.whenSet (.parts (by parts_ok) (by krfl))).quiet (.whenSet (.parts (by parts_ok) (by krfl))))).append
    (.parts (ids := []) (by parts_ok) (by krfl))).append (.whenSet (.parts (by parts_ok) (by krfl)))).append
    (.whenSet (.parts (by parts_ok) (by krfl)))).append (.parts (ids := []) (by parts_ok) (by krfl))).append
    (.whenSome fun _ _ => .parts (by parts_ok) (by krfl))).append (.parts (ids := []) (by parts_ok) (by krfl))

/-! ### Code blocks -/

theorem seen_segment {s : Segment} (h : Plain s.color) : Seen R (segmentXml s) [] := by
  unfold segmentXml
  exact (((Seen.parts (by parts_ok) (by krfl)).quiet (.whenSet (.parts (by parts_ok) (by krfl)))).quiet
    (.whenSet (.parts (by parts_ok) (by krfl)))).quiet (.parts (by parts_ok) (by krfl))

theorem seen_highlighted {l : List Segment} (h : ∀ s ∈ l, Plain s.color) : Seen R (highlightedLineXml l) [] := by
  unfold highlightedLineXml
  refine ((Seen.parts (by parts_ok) (by krfl)).quiet ?_).quiet (.parts (by parts_ok) (by krfl))
  split
  · exact .parts (by unfold blankLineXml; parts_ok) (by krfl)
  · exact .quietAll fun s hs => seen_segment (h s hs)

theorem escapeCode_head {c : Char} (hc : c ≠ '&') {s y : Str} (h : escapeCode s = c :: y) : ∃ q, s = c :: q ∧ escapeCode q = y := by
  cases s with
  | nil => cases h
  | cons d s =>
    rw [escapeCode_cons] at h
    split at h
    · exact absurd (List.cons.inj h).1.symm hc
    · split at h
      · exact absurd (List.cons.inj h).1.symm hc
      · split at h
        · exact absurd (List.cons.inj h).1.symm hc
        · simp only [List.singleton_append, List.cons.injEq] at h
          exact ⟨s, by rw [h.1], h.2⟩

theorem escapeCode_mid {c : Char} (hc : c ∉ c!"&amp;&lt;&gt;") : ∀ {s x y : Str}, escapeCode s = x ++ c :: y →
    ∃ p q, s = p ++ c :: q ∧ escapeCode q = y := by
  have key : ∀ {u x y z : Str}, c ∉ u → u ++ z = x ++ c :: y → ∃ x', z = x' ++ c :: y := by
    intro u x y z hu e
    rw [List.append_eq_append_iff] at e
    rcases e with ⟨a', rfl, e⟩ | ⟨c', rfl, e⟩
    · exact ⟨a', e⟩
    · cases c' with
      | nil => exact ⟨[], by simpa using e.symm⟩
      | cons d c' =>
        simp only [List.cons_append, List.cons.injEq] at e
        exact absurd (by simp [e.1]) hu
  intro s
  induction s with
  | nil => intro x y h; simp [escapeCode] at h
  | cons d s ih =>
    intro x y h
    rw [escapeCode_cons] at h
    have go : ∀ u : Str, c ∉ u → u ++ escapeCode s = x ++ c :: y → ∃ p q, d :: s = p ++ c :: q ∧ escapeCode q = y := by
      intro u hu e
      obtain ⟨x', e'⟩ := key hu e
      obtain ⟨p, q, e2, e3⟩ := ih e'
      exact ⟨d :: p, q, by rw [e2]; rfl, e3⟩
    have hsub : ∀ u : Str, (∀ z ∈ u, z ∈ c!"&amp;&lt;&gt;") → c ∉ u := fun u hu hm => hc (hu c hm)
    split at h
    · exact go _ (hsub _ (by decide)) h
    · split at h
      · exact go _ (hsub _ (by decide)) h
      · split at h
        · exact go _ (hsub _ (by decide)) h
        · cases x with
          | nil =>
            simp only [List.singleton_append, List.nil_append, List.cons.injEq] at h
            exact ⟨[], s, by rw [h.1]; rfl, h.2⟩
          | cons e x =>
            simp only [List.singleton_append, List.cons_append, List.cons.injEq] at h
            obtain ⟨p, q, e2, e3⟩ := ih h.2
            exact ⟨d :: p, q, by rw [e2]; rfl, e3⟩

/-- Code without ids has no ids when it is escaped. -/
theorem escapeCode_noId {s : Str} (h : ∀ a b, s ≠ a ++ c!"rId" ++ b) : ∀ a b, escapeCode s ≠ a ++ c!"rId" ++ b := by
  intro a b e
  have e' : escapeCode s = a ++ 'r' :: (c!"Id" ++ b) := by rw [e]; simp
  obtain ⟨p, q, rfl, e2⟩ := escapeCode_mid (by decide) e'
  obtain ⟨q, rfl, e3⟩ := escapeCode_head (by decide) e2
  obtain ⟨q, rfl, e4⟩ := escapeCode_head (by decide) e3
  exact h p q (by simp)

/-- A text without ids before a mark. -/
theorem quotes_noId {s : Str} (h : ∀ a b, s ≠ a ++ c!"rId" ++ b) (t : Str) (ht : QuotesOk R ('<' :: t)) : QuotesOk R (s ++ '<' :: t) := by
  intro a b e
  rw [List.append_eq_append_iff] at e
  rcases e with ⟨a', rfl, e⟩ | ⟨c', rfl, e⟩
  · rcases ht a' b e with h | ⟨h1, h2⟩ | h
    · exact .inl h
    · refine .inr (.inl ⟨?_, ?_⟩) <;> rw [List.reverse_append]
      · exact differ_append h1 _
      · exact differ_append h2 _
    · exact .inr (.inr h)
  · cases c' with
    | nil => simp at e
    | cons d c' =>
      simp only [List.cons_append, List.cons.injEq] at e
      obtain ⟨rfl, rfl⟩ := e
      refine .inl ?_
      match c' with
      | [] => simp [differ]
      | [x] => by_cases hx : 'r' = x <;> simp [differ, hx]
      | [x, y] => by_cases hx : 'r' = x <;> by_cases hy : 'I' = y <;> simp [differ, hx, hy]
      | x :: y :: z :: r =>
        by_cases hx : 'r' = x
        · by_cases hy : 'I' = y
          · by_cases hz : 'd' = z
            · subst hx hy hz
              exact absurd (by simp) (h (a ++ c!"\"") r)
            · simp [differ, hx, hy, hz]
          · simp [differ, hx, hy]
        · simp [differ, hx]

set_option maxRecDepth 8000 in
theorem seen_codeBlock {highlight : Option (Str → Str → List (List Segment))}
    (h : ∀ f ∈ highlight, ∀ c l, ∀ line ∈ f c l, ∀ s ∈ line, Plain s.color) (id : Nat) {b : CodeBlock}
    (hb : highlight = none → ∀ u v, b.code ≠ u ++ c!"rId" ++ v) : Seen R (codeBlockXml highlight id b) [dec id] := by
  have i1 := plain_decInt b.x
  have i2 := plain_decInt b.y
  have i3 := plain_decInt b.width
  have i4 := plain_decInt b.height
  have hc : Seen R (codeContentXml highlight b) [] := by
    unfold codeContentXml
    split
    · rename_i f
      exact .quietAll fun l hl => seen_highlighted (h f rfl _ _ l hl)
    · have e : fmt t!"<a:t>{.raw (escapeCode b.code)}</a:t>" = c!"<a:t>" ++ (escapeCode b.code ++ c!"</a:t>") := by simp [fmt, Part.render]
      exact .of_str e ((scan_of_lit (n := 100) (ids := []) (by krfl)).append ((Scan.skip (noStart_of_notMem (lt_notMem_escapeCode _))).append
        (b := []) (scan_of_lit (n := 100) (by krfl))))
        ((quotesOk_of_check (by decide)).append (quotes_noId (escapeCode_noId (hb rfl)) _ (quotesOk_of_check (by decide))))
  unfold codeBlockXml
  exact ((seen_frame (x := [.lit c!"\" name=\"Code Block\""]) (x' := c!" name=\"Code Block\"") (by parts_ok) (by krfl) (by krfl)
      (by simp [fmt, Part.render]) (by decide) (by krfl)).append hc).append (.parts (ids := []) (by parts_ok) (by krfl))

/-! ### Charts -/

theorem quotes_lastRef {ps : List Part} {s v t : Str} (k : Nat) (e : ps.drop k = [.lit s, .raw v, .lit t]) (ho : ∀ p ∈ ps, p.Ok)
    (hx : quotesParts (ps.take k) = true)
    (h1 : s.getLast? = some '"') (h2 : quotesCheck [] s.dropLast = true) (hv : v ∈ R) (hq : '"' ∉ v) (h3 : t.head? = some '"')
    (h4 : quotesCheck [] t = true) : QuotesOk R (fmt ps) := by
  have es : s = s.dropLast ++ ['"'] := (List.dropLast_append_getLast? _ h1).symm
  obtain ⟨b, rfl⟩ : ∃ b, t = '"' :: b := by
    cases t with
    | nil => cases h3
    | cons c b => simp at h3; exact ⟨b, by rw [h3]⟩
  have e2 : fmt ps = fmt (ps.take k) ++ (s.dropLast ++ '"' :: (v ++ '"' :: b)) := by
    conv_lhs => rw [← List.take_append_drop k ps, e, fmt_append]
    conv_lhs => rw [es]
    simp [fmt, Part.render]
  rw [e2]
  exact (quotes_parts (fun p hp => ho p (List.mem_of_mem_take hp)) hx).append ((quotesOk_of_check h2).append (.ref hv hq (quotesOk_of_check h4)))

set_option maxRecDepth 8000 in
theorem seen_chart (c : ChartBox) {rid : Str} (hr : rid ∈ R) (hp : Plain rid) (id : Nat) : Seen R (chartRefXml c rid id) [dec id] := by
  unfold chartRefXml
  refine ⟨?_, ?_⟩
  · exact Scan.frame (x := [.lit c!"\" name=\"Chart ", .num id, .lit c!"\""]) (x' := c!" name=\"Chart " ++ dec id ++ c!"\"") (by parts_ok) (by krfl) (by krfl)
      (by simp [fmt, Part.render, Part.num]) (by simp [not_mem_gt_dec])
  · exact quotes_lastRef 12 rfl (by parts_ok) (by krfl) (by krfl) (by krfl) hr hp.2.2 (by krfl) (by krfl)

end PptRs
