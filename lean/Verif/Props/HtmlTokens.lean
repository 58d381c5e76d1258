import Verif.Props.HtmlSkip
import Verif.Lemmas.Template

/-!
# C44: from the text of a page to its events
-/

namespace PptRs.Props
open PptRs PptRs.Spec

theorem htmlEsc_eq : htmlEsc = htmlChar := rfl

theorem decode_written (s : Str) : decodeEntities (s.flatMap htmlEsc) = s := by
  rw [htmlEsc_eq, ← escapeHtml_eq, C46_html_roundtrip]

theorem mem_htmlEsc {c d : Char} (h : d ∈ htmlEsc c) : d ≠ '<' ∧ d ≠ '"' := by
  unfold htmlEsc at h
  split_ifs at h with h1 h2 h3 h4 h5
  · exact (show ∀ d ∈ c!"&amp;", d ≠ '<' ∧ d ≠ '"' by decide) d h
  · exact (show ∀ d ∈ c!"&lt;", d ≠ '<' ∧ d ≠ '"' by decide) d h
  · exact (show ∀ d ∈ c!"&gt;", d ≠ '<' ∧ d ≠ '"' by decide) d h
  · exact (show ∀ d ∈ c!"&quot;", d ≠ '<' ∧ d ≠ '"' by decide) d h
  · exact (show ∀ d ∈ c!"&#39;", d ≠ '<' ∧ d ≠ '"' by decide) d h
  · simp only [List.mem_singleton] at h
    subst h
    exact ⟨h2, h4⟩

theorem mem_written {s : Str} {d : Char} (h : d ∈ s.flatMap htmlEsc) : d ≠ '<' ∧ d ≠ '"' := by
  obtain ⟨c, _, hc⟩ := List.mem_flatMap.mp h
  exact mem_htmlEsc hc

/-- Text that satisfies a test up to a point is what `takeWhile` takes. -/
theorem takeWhile_stop {p : Char → Bool} {a : Str} {c : Char} {r : Str} (h : ∀ d ∈ a, p d = true) (hc : p c = false) :
    (a ++ c :: r).takeWhile p = a ∧ (a ++ c :: r).dropWhile p = c :: r := by
  induction a with
  | nil => simp [hc]
  | cons x a ih =>
    have hx := h x (by simp)
    obtain ⟨h1, h2⟩ := ih (fun d hd => h d (by simp [hd]))
    simp [hx, h1, h2]

theorem takeWhile_all {p : Char → Bool} {a : Str} (h : ∀ d ∈ a, p d = true) :
    a.takeWhile p = a ∧ a.dropWhile p = [] := by
  induction a with
  | nil => simp
  | cons x a ih =>
    have hx := h x (by simp)
    obtain ⟨h1, h2⟩ := ih (fun d hd => h d (by simp [hd]))
    simp [hx, h1, h2]

theorem name_ascii {n : Str} (h : isHtmlName n = true) : ∀ c ∈ n, 48 ≤ c.toNat ∧ c.toNat < 123 ∧
    c.isAlphanum = true ∧ c.toLower = c := by
  intro c hc
  simp only [isHtmlName, ne_eq, decide_not, Bool.and_eq_true, List.all_eq_true, Bool.or_eq_true] at h
  have := h.2 c hc
  simp only [Char.isLower, Char.isDigit, Bool.and_eq_true, decide_eq_true_eq] at this
  have e : c.toNat = c.val.toNat := rfl
  have hb : (97 ≤ c.toNat ∧ c.toNat ≤ 122) ∨ (48 ≤ c.toNat ∧ c.toNat ≤ 57) := by
    rcases this with ⟨h1, h2⟩ | ⟨h1, h2⟩
    · left; exact ⟨h1, h2⟩
    · right; exact ⟨h1, h2⟩
  refine ⟨by omega, by omega, ?_, ?_⟩
  · simp only [Char.isAlphanum, Char.isAlpha, Char.isUpper, Char.isLower, Char.isDigit, Bool.or_eq_true, Bool.and_eq_true,
      decide_eq_true_eq]
    rcases this with h | h
    · left; right; exact h
    · right; exact h
  · unfold Char.toLower
    have : ¬ (c.val ≥ 65 ∧ c.val ≤ 90) := by
      rintro ⟨h1, h2⟩
      have h1 : 65 ≤ c.toNat := h1
      have h2 : c.toNat ≤ 90 := h2
      omega
    exact dif_neg this

theorem lowerStr_name {low : Str → Str} {n : Str} (h : isHtmlName n = true) : lowerStr low n = n := by
  have h1 := name_ascii h
  unfold lowerStr
  rw [if_pos]
  · conv => rhs; rw [← List.map_id n]
    exact List.map_congr_left fun c hc => (h1 c hc).2.2.2
  · rw [List.all_eq_true]
    intro c hc
    have := h1 c hc
    exact decide_eq_true (by omega)

theorem nameChar_name {uni : Char → Bool} {n : Str} (h : isHtmlName n = true) : ∀ c ∈ n, htmlNameChar uni c = true := by
  intro c hc
  have := name_ascii h c hc
  simp [htmlNameChar, Repair.isAlnum, show c.toNat < 128 by omega, this.2.2.1]

theorem name_ne {n : Str} (h : isHtmlName n = true) : n ≠ [] := by
  simp only [isHtmlName, ne_eq, decide_not, Bool.and_eq_true] at h
  simpa using h.1

theorem char_ne_of_toNat {c d : Char} (h : c.toNat ≠ d.toNat) : c ≠ d := fun e => h (by rw [e])

theorem attrNameEnd_name {n : Str} (h : isHtmlName n = true) : ∀ c ∈ n, (!attrNameEnd c) = true := by
  intro c hc
  obtain ⟨h1, h2, h3, _⟩ := name_ascii h c hc
  have e1 : c ≠ '=' := by rintro rfl; revert h3; decide
  have e2 : c ≠ '>' := by rintro rfl; revert h3; decide
  have e3 : c ≠ ' ' := by rintro rfl; revert h3; decide
  have e4 : c ≠ '\t' := by rintro rfl; revert h3; decide
  have e5 : c ≠ '\n' := by rintro rfl; revert h3; decide
  have e6 : c ≠ '\r' := by rintro rfl; revert h3; decide
  have e7 : c ≠ '/' := by rintro rfl; revert h3; decide
  simp [attrNameEnd, htmlWs, e1, e2, e3, e4, e5, e6, e7]

theorem readAttr_written {k v r : Str} (hk : isHtmlName k = true) :
    readAttr (k ++ c!"=\"" ++ v.flatMap htmlEsc ++ c!"\"" ++ r) = ((k, v.flatMap htmlEsc), r) := by
  have e : k ++ c!"=\"" ++ v.flatMap htmlEsc ++ c!"\"" ++ r = k ++ '=' :: ('"' :: (v.flatMap htmlEsc ++ '"' :: r)) := by simp
  obtain ⟨h1, h2⟩ := takeWhile_stop (p := fun c => !attrNameEnd c) (a := k) (c := '=')
    (r := '"' :: (v.flatMap htmlEsc ++ '"' :: r)) (attrNameEnd_name hk) (by decide)
  have h3 : ('=' :: ('"' :: (v.flatMap htmlEsc ++ '"' :: r))).dropWhile htmlWs = '=' :: ('"' :: (v.flatMap htmlEsc ++ '"' :: r)) := by
    simp [htmlWs]
  obtain ⟨h4, h5⟩ := takeWhile_stop (p := fun c => c != '"') (a := v.flatMap htmlEsc) (c := '"') (r := r)
    (fun d hd => by simpa using (mem_written hd).2) (by decide)
  have h6 : readAttrValue (('"' :: (v.flatMap htmlEsc ++ '"' :: r)).dropWhile htmlWs) = (v.flatMap htmlEsc, r) := by
    have : ('"' :: (v.flatMap htmlEsc ++ '"' :: r)).dropWhile htmlWs = '"' :: (v.flatMap htmlEsc ++ '"' :: r) := by
      simp [htmlWs]
    rw [this]
    simp [readAttrValue, h4, h5]
  rw [e]
  unfold readAttr
  rw [h1, h2, h3]
  simp only [h6]

theorem attrLoop_end (low : Str → Str) (fuel : Nat) (r : Str) : attrLoop low fuel ('>' :: r) = ([], '>' :: r) := by
  cases fuel <;> simp [attrLoop, htmlWs]

theorem attrLoop_written (low : Str → Str) (attrs : List (Str × Str)) (h : attrs.all (fun x => isHtmlName x.1) = true)
    (fuel : Nat) (r : Str) :
    attrLoop low (fuel + attrs.length) (writeHtmlAttrs attrs ++ '>' :: r) = (attrs, '>' :: r) := by
  induction attrs with
  | nil => simp [writeHtmlAttrs, attrLoop_end]
  | cons a attrs ih =>
    simp only [List.all_cons, Bool.and_eq_true] at h
    obtain ⟨k, v⟩ := a
    have hk := h.1
    obtain ⟨c, k', rfl⟩ : ∃ c k', k = c :: k' := by
      cases k with
      | nil => exact absurd rfl (name_ne hk)
      | cons c k' => exact ⟨c, k', rfl⟩
    have he := attrNameEnd_name hk c (by simp)
    simp only [attrNameEnd, Bool.not_eq_true', Bool.or_eq_false_iff, decide_eq_false_iff_not] at he
    have e : writeHtmlAttrs ((c :: k', v) :: attrs) ++ '>' :: r =
        ' ' :: (c :: k' ++ c!"=\"" ++ v.flatMap htmlEsc ++ c!"\"" ++ (writeHtmlAttrs attrs ++ '>' :: r)) := by
      simp [writeHtmlAttrs]
    rw [e, List.length_cons, ← Nat.add_assoc]
    have hd : (' ' :: (c :: k' ++ c!"=\"" ++ v.flatMap htmlEsc ++ c!"\"" ++ (writeHtmlAttrs attrs ++ '>' :: r))).dropWhile htmlWs =
        c :: (k' ++ c!"=\"" ++ v.flatMap htmlEsc ++ c!"\"" ++ (writeHtmlAttrs attrs ++ '>' :: r)) := by
      rw [List.dropWhile_cons, if_pos (show htmlWs ' ' = true from rfl), List.cons_append, List.cons_append, List.cons_append, List.cons_append,
        List.dropWhile_cons, if_neg (by rw [he.1.2]; simp)]
    have hr := readAttr_written (v := v) (r := writeHtmlAttrs attrs ++ '>' :: r) hk
    simp only [List.cons_append] at hr
    unfold attrLoop
    rw [hd]
    simp only [he.1.1.2, he.2, if_false, hr, ih h.2, lowerStr_name hk, decode_written]

theorem readOpenTag_written (env : HtmlEnv) {n : Str} {attrs : List (Str × Str)} (hn : isHtmlName n = true)
    (ha : attrs.all (fun x => isHtmlName x.1) = true) (r : Str) :
    readOpenTag env (n ++ writeHtmlAttrs attrs ++ '>' :: r) = ([.openTag n attrs], r) := by
  have hstop : ∃ c t, writeHtmlAttrs attrs ++ '>' :: r = c :: t ∧ htmlNameChar env.uni c = false := by
    cases attrs with
    | nil => exact ⟨'>', r, rfl, rfl⟩
    | cons a attrs => exact ⟨' ', _, by simp [writeHtmlAttrs]; rfl, rfl⟩
  obtain ⟨c, t, hct, hc⟩ := hstop
  obtain ⟨h1, h2⟩ := takeWhile_stop (p := htmlNameChar env.uni) (a := n) (c := c) (r := t) (nameChar_name hn) hc
  rw [List.append_assoc, hct]
  unfold readOpenTag
  rw [h1, h2]
  have hl : attrs.length ≤ (n ++ c :: t).length + 1 := by
    rw [← hct]
    have : attrs.length ≤ (writeHtmlAttrs attrs).length := by
      clear hct h1 h2 hn
      induction attrs with
      | nil => simp
      | cons a attrs ih =>
        simp only [List.all_cons, Bool.and_eq_true] at ha
        have := ih ha.2
        simp only [writeHtmlAttrs, List.flatMap_cons, List.length_append, List.length_cons] at this ⊢
        omega
    simp only [List.length_append]
    omega
  obtain ⟨f, hf⟩ := Nat.exists_eq_add_of_le hl
  rw [hf, Nat.add_comm attrs.length f, ← hct, attrLoop_written env.low attrs ha]
  simp [lowerStr_name hn, name_ne hn]

theorem tokenLoop_tag (env : HtmlEnv) (fuel : Nat) (d : Char) (r : Str) :
    tokenLoop env (fuel + 1) ('<' :: d :: r) =
      match stripPrefix? c!"!--" (d :: r) with
      | some t => tokenLoop env fuel (skipComment t)
      | none =>
        if d = '!' then tokenLoop env fuel (afterGt r)
        else if d = '/' then closeEvents env r ++ tokenLoop env fuel (afterGt (r.dropWhile htmlWs))
        else
          (readOpenTag env ((d :: r).dropWhile htmlWs)).1 ++
            tokenLoop env fuel (readOpenTag env ((d :: r).dropWhile htmlWs)).2 := rfl

theorem tokenLoop_text (env : HtmlEnv) (fuel : Nat) {c : Char} (r : Str) (hc : c ≠ '<') :
    tokenLoop env (fuel + 1) (c :: r) = textEvents ((c :: r).takeWhile fun c => c != '<') ++
        tokenLoop env fuel ((c :: r).dropWhile fun c => c != '<') := by
  exact if_neg hc

/-- `a` is read as the events `es` whatever follows, using one unit of fuel per token. -/
def Tokens (env : HtmlEnv) (a : Str) (es : List HtmlEvent) : Prop :=
  ∃ k, k ≤ a.length ∧ ∀ fuel r, tokenLoop env (fuel + k) (a ++ r) = es ++ tokenLoop env fuel r

theorem head_of_name {n : Str} (hn : isHtmlName n = true) : ∃ c n', n = c :: n' ∧ c ≠ '!' ∧ c ≠ '/' ∧ htmlWs c = false := by
  cases n with
  | nil => exact absurd rfl (name_ne hn)
  | cons c n' =>
    have h1 := (name_ascii hn c (by simp)).2.2.1
    have he := attrNameEnd_name hn c (by simp)
    simp only [attrNameEnd, Bool.not_eq_true', Bool.or_eq_false_iff, decide_eq_false_iff_not] at he
    exact ⟨c, n', rfl, by rintro rfl; revert h1; decide, he.2, he.1.2⟩

theorem tokens_open (env : HtmlEnv) {n : Str} {attrs : List (Str × Str)} (hn : isHtmlName n = true)
    (ha : attrs.all (fun x => isHtmlName x.1) = true) :
    Tokens env (c!"<" ++ n ++ writeHtmlAttrs attrs ++ c!">") [.openTag n attrs] := by
  refine ⟨1, by simp, fun fuel r => ?_⟩
  obtain ⟨c, n', rfl, h1, h2, h3⟩ := head_of_name hn
  have e : c!"<" ++ c :: n' ++ writeHtmlAttrs attrs ++ c!">" ++ r = '<' :: (c :: (n' ++ writeHtmlAttrs attrs ++ '>' :: r)) := by
    simp
  rw [e]
  have hr := readOpenTag_written env hn ha r
  simp only [List.cons_append] at hr
  have hd : (c :: (n' ++ writeHtmlAttrs attrs ++ '>' :: r)).dropWhile htmlWs = c :: (n' ++ writeHtmlAttrs attrs ++ '>' :: r) := by
    simp [h3]
  rw [tokenLoop_tag]
  simp only [stripPrefix?, Ne.symm h1, if_false, h1, h2, hd, hr]

theorem tokens_close (env : HtmlEnv) {n : Str} (hn : isHtmlName n = true) :
    Tokens env (c!"</" ++ n ++ c!">") [.closeTag n] := by
  refine ⟨1, by simp, fun fuel r => ?_⟩
  have e : c!"</" ++ n ++ c!">" ++ r = '<' :: '/' :: (n ++ '>' :: r) := by simp
  rw [e]
  have hd : (n ++ '>' :: r).dropWhile htmlWs = n ++ '>' :: r := by
    obtain ⟨c, n', rfl, _, _, h3⟩ := head_of_name hn
    simp [h3]
  have hg : ∀ d ∈ n, (d != '>') = true := by
    intro d hd
    have he := attrNameEnd_name hn d hd
    simp only [attrNameEnd, Bool.not_eq_true', Bool.or_eq_false_iff, decide_eq_false_iff_not] at he
    simpa using he.1.1.2
  obtain ⟨h1, h2⟩ := takeWhile_stop (p := fun c => c != '>') (a := n) (c := '>') (r := r) hg (by decide)
  have hf : n.filter (htmlNameChar env.uni) = n := by
    rw [List.filter_eq_self]
    exact nameChar_name hn
  rw [tokenLoop_tag]
  simp only [if_true, stripPrefix?, show ¬ ('!' = '/') by decide, show ¬ ('/' = '!') by decide, if_false]
  simp only [closeEvents, afterGt, hd, h1, h2, hf, name_ne hn, if_false, lowerStr_name hn, List.drop_succ_cons, List.drop_zero]

theorem isWs_esc {c : Char} (h : isWs c = false) : ∃ d ∈ htmlEsc c, isWs d = false := by
  unfold htmlEsc
  split_ifs with h1 h2 h3 h4 h5
  · exact ⟨'&', by simp, by decide⟩
  · exact ⟨'&', by simp, by decide⟩
  · exact ⟨'&', by simp, by decide⟩
  · exact ⟨'&', by simp, by decide⟩
  · exact ⟨'&', by simp, by decide⟩
  · exact ⟨c, by simp, h⟩

theorem dropWhile_ne_nil {p : Char → Bool} {s : Str} {c : Char} (hc : c ∈ s) (h : p c = false) : s.dropWhile p ≠ [] := by
  induction s with
  | nil => simp at hc
  | cons x s ih =>
    rw [List.dropWhile_cons]
    split
    · rename_i hx
      rcases List.mem_cons.mp hc with rfl | hc
      · rw [h] at hx; simp at hx
      · exact ih hc
    · simp

theorem mem_dropWhile {p : Char → Bool} {s : Str} {c : Char} (hc : c ∈ s) (h : p c = false) : c ∈ s.dropWhile p := by
  induction s with
  | nil => simp at hc
  | cons x s ih =>
    rw [List.dropWhile_cons]
    split
    · rename_i hx
      rcases List.mem_cons.mp hc with rfl | hc
      · rw [h] at hx; simp at hx
      · exact ih hc
    · exact hc

theorem trim_ne_nil {s : Str} {c : Char} (hc : c ∈ s) (h : isWs c = false) : trim s ≠ [] := by
  have h1 : c ∈ (trimStart s).reverse := List.mem_reverse.mpr (mem_dropWhile hc h)
  have h2 := dropWhile_ne_nil h1 h
  simpa [trim, trimEnd] using h2

/-- Text is one event if a tag or the end follows. -/
theorem tokens_text (env : HtmlEnv) {s : Str} (hs : s.any (fun c => !isWs c) = true) (fuel : Nat) (r : Str)
    (hr : r = [] ∨ ∃ t, r = '<' :: t) :
    tokenLoop env (fuel + 1) (s.flatMap htmlEsc ++ r) = .text s :: tokenLoop env fuel r := by
  obtain ⟨c, hc, hw⟩ := List.any_eq_true.mp hs
  simp only [Bool.not_eq_true'] at hw
  obtain ⟨d, hd, hdw⟩ := isWs_esc hw
  have hdm : d ∈ s.flatMap htmlEsc := List.mem_flatMap.mpr ⟨c, hc, hd⟩
  have hall : ∀ x ∈ s.flatMap htmlEsc, (x != '<') = true := fun x hx => by simpa using (mem_written hx).1
  have htd : (s.flatMap htmlEsc ++ r).takeWhile (fun c => c != '<') = s.flatMap htmlEsc ∧
      (s.flatMap htmlEsc ++ r).dropWhile (fun c => c != '<') = r := by
    rcases hr with rfl | ⟨t, rfl⟩
    · simpa using takeWhile_all hall
    · exact takeWhile_stop hall (by decide)
  have hev : textEvents (s.flatMap htmlEsc) = [.text s] := by
    simp [textEvents, trim_ne_nil hdm hdw, decode_written]
  cases hf : s.flatMap htmlEsc ++ r with
  | nil =>
    rw [List.append_eq_nil_iff] at hf
    rw [hf.1] at hdm; simp at hdm
  | cons x t =>
    have hx : x ≠ '<' := by
      cases he : s.flatMap htmlEsc with
      | nil => rw [he] at hdm; simp at hdm
      | cons y u =>
        rw [he, List.cons_append, List.cons.injEq] at hf
        have := (mem_written (s := s) (d := y) (by rw [he]; simp)).1
        rw [hf.1] at this; exact this
    rw [tokenLoop_text env fuel t hx, ← hf, htd.1, htd.2, hev]
    rfl

theorem write_head {h : Html} (hp : h.proper = true) (ht : h.isText = false) : ∃ t, h.write = '<' :: t := by
  cases h with
  | text s => simp [Html.isText] at ht
  | void n a => exact ⟨_, by simp [Html.write]; rfl⟩
  | elem n a kids => exact ⟨_, by simp [Html.write]; rfl⟩

/-- A page is read as its events. -/
theorem tokens_write (env : HtmlEnv) : ∀ doc : List Html, properL doc = true →
    ∃ k, k ≤ (writeL doc).length ∧ ∀ fuel r, (r = [] ∨ ∃ t, r = '<' :: t) →
      tokenLoop env (fuel + k) (writeL doc ++ r) = eventsL doc ++ tokenLoop env fuel r := by
  refine html_inductL (P := fun h => h.proper = true → ∃ k, k ≤ h.write.length ∧ ∀ fuel r,
    (h.isText = true → r = [] ∨ ∃ t, r = '<' :: t) →
      tokenLoop env (fuel + k) (h.write ++ r) = Html.events h ++ tokenLoop env fuel r) ?_ ?_ ?_ ?_ ?_
  · intro s hp
    simp only [Html.proper] at hp
    refine ⟨1, ?_, fun fuel r hr => ?_⟩
    · obtain ⟨c, hc, hw⟩ := List.any_eq_true.mp hp
      simp only [Bool.not_eq_true'] at hw
      obtain ⟨d, hd, _⟩ := isWs_esc hw
      have : d ∈ s.flatMap htmlEsc := List.mem_flatMap.mpr ⟨c, hc, hd⟩
      exact List.length_pos_iff.mpr (List.ne_nil_of_mem this)
    · simpa [Html.write, Html.events] using tokens_text env hp fuel r (hr rfl)
  · intro n a hp
    simp only [Html.proper, Bool.and_eq_true] at hp
    obtain ⟨k, hk, ht⟩ := tokens_open env hp.1 hp.2
    exact ⟨k, hk, fun fuel r _ => ht fuel r⟩
  · intro n a kids ih hp
    simp only [Html.proper, Bool.and_eq_true] at hp
    obtain ⟨k1, hk1, ht1⟩ := tokens_open env hp.1.1 hp.1.2
    obtain ⟨k2, hk2, ht2⟩ := ih hp.2
    obtain ⟨k3, hk3, ht3⟩ := tokens_close env hp.1.1
    refine ⟨k3 + k2 + k1, ?_, fun fuel r _ => ?_⟩
    · simp only [Html.write, List.length_append] at hk1 hk3 ⊢
      omega
    · have e : (Html.elem n a kids).write ++ r = (c!"<" ++ n ++ writeHtmlAttrs a ++ c!">") ++ (writeL kids ++ ((c!"</" ++ n ++ c!">") ++ r)) := by
        simp [Html.write]
      rw [e, ← Nat.add_assoc, ht1, ← Nat.add_assoc, ht2 _ (c!"</" ++ n ++ c!">" ++ r) (.inr ⟨_, by simp; rfl⟩), ht3]
      simp [Html.events]
  · intro _
    exact ⟨0, by simp, fun fuel r _ => by simp [writeL, eventsL]⟩
  · intro h t ih1 ih2 hp
    simp only [properL, Bool.and_eq_true, Bool.not_eq_true'] at hp
    obtain ⟨k1, hk1, ht1⟩ := ih1 hp.1.1
    obtain ⟨k2, hk2, ht2⟩ := ih2 hp.2
    refine ⟨k2 + k1, by simp only [writeL, List.length_append]; omega, fun fuel r hr => ?_⟩
    rw [writeL, List.append_assoc, ← Nat.add_assoc, ht1, ht2 fuel r hr]
    · simp [eventsL]
    · intro hx
      cases t with
      | nil => simpa [writeL] using hr
      | cons g t =>
        have hg : g.isText = false := by simpa [hx] using hp.1.2
        have hgp : g.proper = true := by
          have := hp.2
          simp only [properL, Bool.and_eq_true] at this
          exact this.1.1
        obtain ⟨u, hu⟩ := write_head hgp hg
        right
        exact ⟨u ++ writeL t ++ r, by simp [writeL, hu]⟩

/-- The tokenizer reads a written page as its tags and texts. -/
theorem C44_tokens (env : HtmlEnv) (doc : List Html) (h : properL doc = true) :
    tokenizeHtml env (writeL doc) = eventsL doc := by
  obtain ⟨k, hk, ht⟩ := tokens_write env doc h
  obtain ⟨f, hf⟩ := Nat.exists_eq_add_of_le (show k ≤ (writeL doc).length + 1 by omega)
  have := ht f [] (.inl rfl)
  rw [List.append_nil] at this
  rw [tokenizeHtml, hf, Nat.add_comm k f, this]
  cases f <;> simp [tokenLoop]

/-- A page is imported as if its hidden elements were not there, and everything else is read. -/
theorem C44_page_partial (env : HtmlEnv) (o : HtmlOptions) (doc : List Html) (h : properL doc = true)
    (hc : closedHiddenL doc = true) :
    parseHtml env o (writeL doc) = parseEvents env o (eventsL (visibleL doc)) := by
  rw [parseHtml, C44_tokens env doc h, C44_hidden_partial env o doc hc]

/-- A hidden element with an element without closing tag in it hides everything that follows. -/
theorem C44_page_violated (env : HtmlEnv) (o : HtmlOptions) (before kids after : List Html) (n : Str)
    (a : List (Str × Str)) (hp : properL (before ++ .elem n a kids :: after) = true) (h : n ∈ hiddenNames)
    (hv : 0 < voidsL kids) :
    parseHtml env o (writeL (before ++ .elem n a kids :: after)) = parseEvents env o (eventsL before) := by
  rw [parseHtml, C44_tokens env _ hp, C44_lost_violated env o before kids after n a h hv]

def defaultHtml : HtmlOptions := ⟨50, 10, true, true, true⟩

/-- `<nav><a>Home</a></nav><h1>A</h1><p>x &lt; y</p>` -/
def samplePage : List Html :=
  [.elem c!"nav" [] [.elem c!"a" [(c!"href", c!"/?a=1&b")] [.text c!"Home"]], .elem c!"h1" [] [.text c!"A"],
   .elem c!"p" [] [.text c!"x < y"]]

example : properL samplePage = true ∧ closedHiddenL samplePage = true := by decide
example (env : HtmlEnv) : parseHtml env defaultHtml (writeL samplePage) =
    some (.ok [{ title := c!"A", content := [c!"x < y"], bullets := [c!"x < y"] }]) := by
  rw [C44_page_partial env defaultHtml samplePage (by decide) (by decide)]
  krfl

/-- With an image in the navigation bar nothing is left. -/
def lostPage : List Html :=
  [.elem c!"nav" [] [.void c!"img" [(c!"src", c!"logo.png")]], .elem c!"h1" [] [.text c!"A"], .elem c!"p" [] [.text c!"x"]]

example (env : HtmlEnv) : parseHtml env defaultHtml (writeL lostPage) = some (.error ()) := by
  have := C44_page_violated env defaultHtml [] [.void c!"img" [(c!"src", c!"logo.png")]]
    [.elem c!"h1" [] [.text c!"A"], .elem c!"p" [] [.text c!"x"]] c!"nav" [] (by decide) (by decide) (by decide)
  exact this

/-- A comparison in a script is read as a tag that swallows the end of the script; the rest of the page is lost. -/
theorem C44_script_violated (env : HtmlEnv) (o : HtmlOptions) :
    parseHtml env o c!"<script>if(a<b){}</script><h1>A</h1><p>x</p>" = some (.error ()) := by
  krfl

/-- How the value of an attribute is written. -/
inductive AttrForm
  | double | single | bare
deriving DecidableEq

/-- An attribute with its value between quotation marks, apostrophes or nothing. -/
def AttrForm.write (k v : Str) : AttrForm → Str
  | .double => k ++ c!"=\"" ++ v.flatMap htmlEsc ++ c!"\""
  | .single => k ++ c!"='" ++ v.flatMap htmlEsc ++ c!"'"
  | .bare => k ++ c!"=" ++ v.flatMap htmlEsc

/-- A value can be written without quotes if it is not empty and has no white space and no `/`. -/
def AttrForm.fits (v : Str) : AttrForm → Bool
  | .bare => v ≠ [] && v.all fun c => c ∉ [' ', '\n', '\t', '\r', '/']
  | _ => true

/-- Attributes in their forms. -/
def writeForms (l : List (AttrForm × Str × Str)) : Str := l.flatMap fun a => ' ' :: a.1.write a.2.1 a.2.2

theorem takeWhile_stop' {p : Char → Bool} {a r : Str} (ha : ∀ c ∈ a, p c = true) (hr : r = [] ∨ ∃ c t, r = c :: t ∧ p c = false) :
    (a ++ r).takeWhile p = a ∧ (a ++ r).dropWhile p = r := by
  rcases hr with rfl | ⟨c, t, rfl, hc⟩
  · simp only [List.append_nil]
    exact takeWhile_all ha
  · exact takeWhile_stop ha hc

theorem readAttr_form {f : AttrForm} {k v r : Str} (hk : isHtmlName k = true) (hv : f.fits v = true)
    (hr : ∃ c t, r = c :: t ∧ (c = ' ' ∨ c = '>')) :
    readAttr (f.write k v ++ r) = ((k, v.flatMap htmlEsc), r) := by
  have key : ∀ w, readAttrValue (w.dropWhile htmlWs) = (v.flatMap htmlEsc, r) →
      readAttr (k ++ '=' :: w) = ((k, v.flatMap htmlEsc), r) := by
    intro w hw
    obtain ⟨h1, h2⟩ := takeWhile_stop (p := fun c => !attrNameEnd c) (a := k) (c := '=') (r := w) (attrNameEnd_name hk) (by decide)
    have h3 : ('=' :: w).dropWhile htmlWs = '=' :: w := by simp [htmlWs]
    unfold readAttr
    rw [h1, h2, h3]
    simp only [hw]
  have quoted : ∀ q, q = '"' ∨ q = '\'' → readAttrValue ((q :: (v.flatMap htmlEsc ++ q :: r)).dropWhile htmlWs) = (v.flatMap htmlEsc, r) := by
    intro q hq
    have hq' : htmlWs q = false := by rcases hq with rfl | rfl <;> decide
    have hne : ∀ d ∈ v.flatMap htmlEsc, (d != q) = true := by
      intro d hd
      obtain ⟨c, _, hc⟩ := List.mem_flatMap.mp hd
      have : d ≠ '"' ∧ d ≠ '\'' := by
        unfold htmlEsc at hc
        split at hc
        · revert hc; simp; rintro (rfl | rfl | rfl | rfl | rfl) <;> decide
        · split at hc
          · revert hc; simp; rintro (rfl | rfl | rfl | rfl) <;> decide
          · split at hc
            · revert hc; simp; rintro (rfl | rfl | rfl | rfl) <;> decide
            · split at hc
              · revert hc; simp; rintro (rfl | rfl | rfl | rfl | rfl | rfl) <;> decide
              · split at hc
                · revert hc; simp; rintro (rfl | rfl | rfl | rfl | rfl) <;> decide
                · obtain rfl : d = c := by simpa using hc
                  exact ⟨‹_›, ‹_›⟩
      rcases hq with rfl | rfl
      · simpa using this.1
      · simpa using this.2
    obtain ⟨h4, h5⟩ := takeWhile_stop (p := fun c => c != q) (a := v.flatMap htmlEsc) (c := q) (r := r) hne (by simp)
    rw [List.dropWhile_cons, if_neg (by simp [hq'])]
    simp only [readAttrValue, if_pos hq, h4, h5, List.drop_one, List.tail_cons]
  cases f with
  | double =>
    have := key _ (quoted '"' (.inl rfl))
    simpa [AttrForm.write] using this
  | single =>
    have := key _ (quoted '\'' (.inr rfl))
    simpa [AttrForm.write] using this
  | bare =>
    have e : AttrForm.write k v .bare ++ r = k ++ '=' :: (v.flatMap htmlEsc ++ r) := by simp [AttrForm.write]
    rw [e]
    refine key _ ?_
    simp only [AttrForm.fits, ne_eq, decide_not, Bool.and_eq_true, Bool.not_eq_true', decide_eq_false_iff_not, List.all_eq_true] at hv
    have hall : ∀ d ∈ v.flatMap htmlEsc, unquotedEnd d = false ∧ htmlWs d = false ∧ d ≠ '"' ∧ d ≠ '\'' := by
      intro d hd
      obtain ⟨c, hcv, hc⟩ := List.mem_flatMap.mp hd
      unfold htmlEsc at hc
      split at hc
      · revert hc; simp; rintro (rfl | rfl | rfl | rfl | rfl) <;> decide
      · split at hc
        · revert hc; simp; rintro (rfl | rfl | rfl | rfl) <;> decide
        · split at hc
          · revert hc; simp; rintro (rfl | rfl | rfl | rfl) <;> decide
          · split at hc
            · revert hc; simp; rintro (rfl | rfl | rfl | rfl | rfl | rfl) <;> decide
            · split at hc
              · revert hc; simp; rintro (rfl | rfl | rfl | rfl | rfl) <;> decide
              · obtain rfl : d = c := by simpa using hc
                have hn := hv.2 d hcv
                simp only [List.mem_cons, List.not_mem_nil, or_false, not_or] at hn
                refine ⟨?_, ?_, ‹_›, ‹_›⟩
                · simp [unquotedEnd, htmlWs, *]
                · simp [htmlWs, *]
    obtain ⟨c, w, hw⟩ : ∃ c w, v.flatMap htmlEsc = c :: w := by
      cases hw : v.flatMap htmlEsc with
      | cons c w => exact ⟨c, w, rfl⟩
      | nil =>
        exfalso
        cases v with
        | nil => exact hv.1 rfl
        | cons a v =>
          rw [List.flatMap_cons] at hw
          have := (List.append_eq_nil_iff.mp hw).1
          revert this
          unfold htmlEsc
          repeat' split
          all_goals simp
    have hc := hall c (by rw [hw]; simp)
    obtain ⟨h1, h2⟩ := takeWhile_stop' (p := fun c => !unquotedEnd c) (a := v.flatMap htmlEsc) (r := r)
      (fun d hd => by rw [(hall d hd).1]; rfl) (by
        obtain ⟨c, t, rfl, hc⟩ := hr
        refine .inr ⟨c, t, rfl, ?_⟩
        rcases hc with rfl | rfl <;> rfl)
    rw [hw] at h1 h2 ⊢
    rw [List.cons_append] at h1 h2 ⊢
    rw [List.dropWhile_cons, if_neg (by simp [hc.2.1])]
    simp only [readAttrValue, hc.2.2.1, hc.2.2.2, or_self, if_false, h1, h2]

theorem forms_head (l : List (AttrForm × Str × Str)) (r : Str) :
    ∃ c t, writeForms l ++ '>' :: r = c :: t ∧ (c = ' ' ∨ c = '>') := by
  cases l with
  | nil => exact ⟨'>', r, rfl, .inr rfl⟩
  | cons a l => exact ⟨' ', _, by rw [writeForms, List.flatMap_cons]; rfl, .inl rfl⟩

theorem attrLoop_forms (low : Str → Str) (l : List (AttrForm × Str × Str))
    (h : ∀ a ∈ l, isHtmlName a.2.1 = true ∧ a.1.fits a.2.2 = true) (fuel : Nat) (r : Str) :
    attrLoop low (fuel + l.length) (writeForms l ++ '>' :: r) = (l.map (·.2), '>' :: r) := by
  induction l with
  | nil => simp [writeForms, attrLoop_end]
  | cons a l ih =>
    obtain ⟨f, k, v⟩ := a
    obtain ⟨hk, hv⟩ := h _ List.mem_cons_self
    have ih := ih fun a ha => h a (List.mem_cons_of_mem _ ha)
    obtain ⟨c, k', rfl⟩ : ∃ c k', k = c :: k' := by
      cases k with
      | nil => exact absurd rfl (name_ne hk)
      | cons c k' => exact ⟨c, k', rfl⟩
    have he := attrNameEnd_name hk c (by simp)
    simp only [attrNameEnd, Bool.not_eq_true', Bool.or_eq_false_iff, decide_eq_false_iff_not] at he
    have hw : ∃ t, f.write (c :: k') v = c :: t := by cases f <;> exact ⟨_, rfl⟩
    obtain ⟨t, ht⟩ := hw
    have e : writeForms ((f, c :: k', v) :: l) ++ '>' :: r = ' ' :: (f.write (c :: k') v ++ (writeForms l ++ '>' :: r)) := by
      simp [writeForms]
    rw [e, List.length_cons, ← Nat.add_assoc]
    have hr := readAttr_form (r := writeForms l ++ '>' :: r) hk hv (forms_head l r)
    rw [ht, List.cons_append] at hr ⊢
    have hd : (' ' :: c :: (t ++ (writeForms l ++ '>' :: r))).dropWhile htmlWs = c :: (t ++ (writeForms l ++ '>' :: r)) := by
      rw [List.dropWhile_cons, if_pos (show htmlWs ' ' = true from rfl), List.dropWhile_cons, if_neg (by rw [he.1.2]; simp)]
    unfold attrLoop
    rw [hd]
    simp only [he.1.1.2, he.2, if_false, hr, ih, lowerStr_name hk, decode_written, List.map_cons]

/-- **C44**: attributes are read whether their values are written between quotation marks, between apostrophes or without either, as
long as a value without either is not empty and has no white space and no `/`. -/
theorem C44_attributes (env : HtmlEnv) (n : Str) (l : List (AttrForm × Str × Str)) (hn : isHtmlName n = true)
    (h : ∀ a ∈ l, isHtmlName a.2.1 = true ∧ a.1.fits a.2.2 = true) :
    tokenizeHtml env (c!"<" ++ n ++ writeForms l ++ c!">") = [.openTag n (l.map (·.2))] := by
  obtain ⟨c, t, hct, hc⟩ := forms_head l []
  have hcn : htmlNameChar env.uni c = false := by rcases hc with rfl | rfl <;> rfl
  obtain ⟨h1, h2⟩ := takeWhile_stop (p := htmlNameChar env.uni) (a := n) (c := c) (r := t) (nameChar_name hn) hcn
  have hl : l.length ≤ (n ++ c :: t).length + 1 := by
    rw [← hct]
    have : l.length ≤ (writeForms l).length := by
      clear hct h1 h2 hn h
      induction l with
      | nil => simp
      | cons a l ih =>
        simp only [writeForms, List.flatMap_cons, List.length_append, List.length_cons] at ih ⊢
        omega
    simp only [List.length_append]
    omega
  obtain ⟨f, hf⟩ := Nat.exists_eq_add_of_le hl
  have hro : readOpenTag env (n ++ (writeForms l ++ c!">")) = ([.openTag n (l.map (·.2))], []) := by
    rw [hct]
    unfold readOpenTag
    rw [h1, h2]
    rw [hf, Nat.add_comm l.length f, ← hct, attrLoop_forms env.low l h]
    simp [lowerStr_name hn, name_ne hn]
  obtain ⟨d, n', rfl, g1, g2, g3⟩ := head_of_name hn
  have e : c!"<" ++ d :: n' ++ writeForms l ++ c!">" = '<' :: d :: (n' ++ (writeForms l ++ c!">")) := by simp
  rw [List.cons_append] at hro
  have hd : (d :: (n' ++ (writeForms l ++ c!">"))).dropWhile htmlWs = d :: (n' ++ (writeForms l ++ c!">")) := by simp [g3]
  rw [e, tokenizeHtml, tokenLoop_tag]
  simp only [stripPrefix?, Ne.symm g1, if_false, g1, g2, hd, hro]
  simp [tokenLoop]

example (env : HtmlEnv) : tokenizeHtml env c!"<img src='a&amp;b.png' alt=\"x y\" width=30>" =
    [.openTag c!"img" [(c!"src", c!"a&b.png"), (c!"alt", c!"x y"), (c!"width", c!"30")]] :=
  C44_attributes env c!"img" [(.single, c!"src", c!"a&b.png"), (.double, c!"alt", c!"x y"), (.bare, c!"width", c!"30")]
    (by decide) (by decide)

end PptRs.Props
