import Verif.Props.TextConv
import Verif.Lemmas.Scan
import Verif.Lemmas.Rels

/-!
# C46 and C49: HTML entities and truncation
-/

namespace PptRs.Props

open PptRs PptRs.Spec

/-! ### C46: entities -/

theorem entityAt_shorter {s rest : Str} {d : Char} (h : entityAt s = some (d, rest)) : rest.length < s.length := by
  unfold entityAt at h
  obtain ⟨⟨a, b⟩, h1, h2⟩ := Option.bind_eq_some_iff.mp h
  obtain ⟨c, _, h3⟩ := Option.map_eq_some_iff.mp h2
  simp only [Prod.mk.injEq] at h3
  have := splitOnce?_some h1
  obtain ⟨-, rfl⟩ := h3
  rw [this]
  simp
  omega

theorem decodeLoop_mono (fuel : Nat) (s : Str) (h : s.length ≤ fuel) : decodeLoop fuel s = decodeEntities s := by
  unfold decodeEntities
  suffices ∀ n m (s : Str), s.length ≤ n → s.length ≤ m → decodeLoop n s = decodeLoop m s from
    this _ _ s h (Nat.le_refl _)
  intro n
  induction n with
  | zero =>
    intro m s h1 _
    cases s with
    | nil => cases m <;> rfl
    | cons c s => simp at h1
  | succ n ih =>
    intro m s h1 h2
    cases s with
    | nil => cases m <;> rfl
    | cons c s =>
      cases m with
      | zero => simp at h2
      | succ m =>
        simp only [List.length_cons] at h1 h2
        unfold decodeLoop
        split
        · split
          · rename_i d rest he
            have := entityAt_shorter he
            rw [ih m rest (by omega) (by omega)]
          · rw [ih m s (by omega) (by omega)]
        · rw [ih m s (by omega) (by omega)]

theorem decodeEntities_nil : decodeEntities [] = [] := rfl

theorem decodeEntities_plain {c : Char} (s : Str) (h : c ≠ '&') :
    decodeEntities (c :: s) = c :: decodeEntities s := by
  show decodeLoop (s.length + 1) (c :: s) = _
  unfold decodeLoop
  rw [if_neg h, decodeLoop_mono _ _ (Nat.le_refl _)]

theorem decodeEntities_amp (s : Str) (h : entityAt s = none) : decodeEntities ('&' :: s) = '&' :: decodeEntities s := by
  show decodeLoop (s.length + 1) ('&' :: s) = _
  unfold decodeLoop
  rw [if_pos rfl]
  simp only [h]
  rw [decodeLoop_mono _ _ (Nat.le_refl _)]

theorem decodeEntities_entity {s rest : Str} {d : Char} (h : entityAt s = some (d, rest)) :
    decodeEntities ('&' :: s) = d :: decodeEntities rest := by
  show decodeLoop (s.length + 1) ('&' :: s) = _
  unfold decodeLoop
  rw [if_pos rfl]
  simp only [h]
  rw [decodeLoop_mono _ _ (Nat.le_of_lt (entityAt_shorter h))]

theorem entityAt_of {e : Str} {d : Char} (r : Str) (hn : ';' ∉ e) (h : entityChar e = some d) :
    entityAt (e ++ c!";" ++ r) = some (d, r) := by
  unfold entityAt
  rw [splitOnce?_append_of_notMem hn]
  simp [h]

/-- **C46**: every entity that `entity_char` knows stands for its character, wherever it occurs. -/
theorem C46_entity (e : Str) (d : Char) (r : Str) (hn : ';' ∉ e) (h : entityChar e = some d) :
    decodeEntities (c!"&" ++ e ++ c!";" ++ r) = d :: decodeEntities r := by
  have := entityAt_of r hn h
  rw [List.append_assoc] at this
  rw [List.append_assoc, List.append_assoc]
  exact decodeEntities_entity this

theorem decode_htmlChar (c : Char) (r : Str) : decodeEntities (htmlChar c ++ r) = c :: decodeEntities r := by
  unfold htmlChar
  split
  · subst_vars; exact C46_entity c!"amp" '&' r (by decide) (by decide)
  · split
    · subst_vars; exact C46_entity c!"lt" '<' r (by decide) (by decide)
    · split
      · subst_vars; exact C46_entity c!"gt" '>' r (by decide) (by decide)
      · split
        · subst_vars; exact C46_entity c!"quot" '"' r (by decide) (by decide)
        · split
          · subst_vars; exact C46_entity c!"#39" '\'' r (by decide) (by decide)
          · exact decodeEntities_plain r ‹_›

/-- **C46**: the importer reads what the HTML export has escaped. -/
theorem C46_html_roundtrip (s : Str) : decodeEntities (escapeHtml s) = s := by
  rw [escapeHtml_eq]
  induction s with
  | nil => rfl
  | cons c s ih => rw [List.flatMap_cons, decode_htmlChar, ih]

theorem decode_escapeChar (c : Char) (r : Str) : decodeEntities (escapeChar c ++ r) = c :: decodeEntities r := by
  unfold escapeChar
  split
  · subst_vars; exact C46_entity c!"amp" '&' r (by decide) (by decide)
  · split
    · subst_vars; exact C46_entity c!"lt" '<' r (by decide) (by decide)
    · split
      · subst_vars; exact C46_entity c!"gt" '>' r (by decide) (by decide)
      · split
        · subst_vars; exact C46_entity c!"quot" '"' r (by decide) (by decide)
        · split
          · subst_vars; exact C46_entity c!"apos" '\'' r (by decide) (by decide)
          · exact decodeEntities_plain r ‹_›

/-- **C46**: the importer reads what `escape_xml` has escaped. -/
theorem C46_xml_roundtrip (s : Str) : decodeEntities (escapeXml s) = s := by
  rw [escapeXml_eq]
  induction s with
  | nil => rfl
  | cons c s ih => rw [List.flatMap_cons, decode_escapeChar, ih]

/-- **C46**: text without `&` is unchanged. -/
theorem C46_no_ampersand (s : Str) (h : '&' ∉ s) : decodeEntities s = s := by
  induction s with
  | nil => rfl
  | cons c s ih =>
    rw [decodeEntities_plain s (by intro hh; simp_all), ih (by simp_all)]

/-- **C46**: text without `;` is unchanged: a bare `&` is kept. -/
theorem C46_no_semicolon (s : Str) (h : ';' ∉ s) : decodeEntities s = s := by
  induction s with
  | nil => rfl
  | cons c s ih =>
    have hs : ';' ∉ s := by simp_all
    by_cases hc : c = '&'
    · subst hc
      rw [decodeEntities_amp s, ih hs]
      unfold entityAt
      rw [splitOnce?_none_of_notMem hs]
      rfl
    · rw [decodeEntities_plain s hc, ih hs]

/-- **C46**: a decimal character reference stands for its character. -/
theorem C46_decimal (c : Char) (r : Str) :
    decodeEntities (c!"&#" ++ dec c.toNat ++ c!";" ++ r) = c :: decodeEntities r := by
  have hn : ';' ∉ c!"#" ++ dec c.toNat := by
    intro h
    rcases List.mem_append.mp h with h | h
    · revert h; decide
    · exact not_mem_dec (by decide) h
  have hv : c.toNat.isValidChar := c.valid
  have hb : c.toNat < 4294967296 := c.val.toNat_lt
  have hd : ∃ x xs, dec c.toNat = x :: xs ∧ x.isDigit = true := by
    cases hd : dec c.toNat with
    | nil => exact absurd hd (dec_ne_nil _)
    | cons x xs => exact ⟨x, xs, rfl, isDigit_of_mem_dec (n := c.toNat) (by simp [hd])⟩
  obtain ⟨x, xs, hx, hdig⟩ := hd
  have hne : x ≠ 'x' := by intro hh; subst hh; revert hdig; decide
  have hchar : entityChar (c!"#" ++ dec c.toNat) = some c := by
    by_cases h39 : dec c.toNat = c!"39"
    · have : c.toNat = 39 := dec_inj (h39.trans (by decide))
      have hc : c = '\'' := by
        have := congrArg Char.ofNat this
        rw [Char.ofNat_toNat] at this
        exact this
      subst hc
      decide
    · unfold entityChar
      have h1 : stripPrefix? c!"#x" (c!"#" ++ dec c.toNat) = none := by
        rw [hx]
        simp [stripPrefix?, Ne.symm hne]
      have h2 : stripPrefix? c!"#" (c!"#" ++ dec c.toNat) = some (dec c.toNat) := stripPrefix?_append _ _
      rw [h1, h2]
      simp only [List.cons_append, List.nil_append, List.cons.injEq]
      simp only [hx, List.cons.injEq, hne, false_and, and_false]
      simp only [← hx, parseU32_dec hb, Option.bind_some, charOfU32?, hv, if_true, Char.ofNat_toNat]
      simp
      intro h h'
      exact absurd (hx.trans (by rw [h, h'])) h39
  exact C46_entity _ c r hn hchar

theorem decodeEntities_letters (a r : Str) (h : '&' ∉ a) : decodeEntities (a ++ r) = a ++ decodeEntities r := by
  induction a with
  | nil => rfl
  | cons c a ih =>
    rw [List.cons_append, decodeEntities_plain _ (by intro hh; simp_all), ih (by simp_all)]
    rfl

/-- **C46**: a decimal reference to a number that is no character, like a surrogate or a number above 10FFFF, is left as it is. -/
theorem C46_no_character (n : Nat) (h : n.isValidChar → False) (r : Str) :
    decodeEntities (c!"&#" ++ dec n ++ c!";" ++ r) = c!"&#" ++ dec n ++ c!";" ++ decodeEntities r := by
  have hn : ';' ∉ c!"#" ++ dec n := by
    intro h
    rcases List.mem_append.mp h with h | h
    · revert h; decide
    · exact not_mem_dec (by decide) h
  have hd : ∃ x xs, dec n = x :: xs ∧ x.isDigit = true := by
    cases hd : dec n with
    | nil => exact absurd hd (dec_ne_nil _)
    | cons x xs => exact ⟨x, xs, rfl, isDigit_of_mem_dec (n := n) (by simp [hd])⟩
  obtain ⟨x, xs, hx, hdig⟩ := hd
  have hne : x ≠ 'x' := by intro hh; subst hh; revert hdig; decide
  have h39 : dec n ≠ c!"39" := by
    intro h39
    have : n = 39 := dec_inj (h39.trans (by decide))
    subst this
    exact h (by decide)
  have hparse : (parseU32? (dec n)).bind charOfU32? = none := by
    by_cases hb : n < 4294967296
    · rw [parseU32_dec hb, Option.bind_some, charOfU32?, if_neg h]
    · cases hp : parseU32? (dec n) with
      | none => rfl
      | some m =>
        rw [Option.bind_some, charOfU32?, if_neg]
        intro hm
        unfold parseU32? at hp
        have hbody : dropPlus (dec n) = dec n := by
          unfold dropPlus
          split
          · rename_i t heq
            exact absurd (heq ▸ List.mem_cons_self) (not_mem_dec (n := n) (c := '+') (by decide))
          · rfl
        have he : Nat.ofDigitChars 10 (dec n) 0 = n := by simp [dec]
        simp only [hbody, he, hb, if_false] at hp
        split at hp <;> try split at hp
        all_goals simp at hp
  have hchar : entityChar (c!"#" ++ dec n) = none := by
    unfold entityChar
    have h1 : stripPrefix? c!"#x" (c!"#" ++ dec n) = none := by
      rw [hx]
      simp [stripPrefix?, Ne.symm hne]
    have h2 : stripPrefix? c!"#" (c!"#" ++ dec n) = some (dec n) := stripPrefix?_append _ _
    rw [h1, h2]
    simp only [hparse]
    simp only [List.cons_append, List.nil_append, List.cons.injEq]
    simp only [hx, List.cons.injEq, hne, false_and, and_false]
    simp
    intro h h'
    exact absurd (hx.trans (by rw [h, h'])) h39
  have hat : entityAt (c!"#" ++ dec n ++ c!";" ++ r) = none := by
    unfold entityAt
    rw [splitOnce?_append_of_notMem hn, Option.bind_some, hchar]
    rfl
  have e : c!"&#" ++ dec n ++ c!";" ++ r = '&' :: (c!"#" ++ dec n ++ c!";" ++ r) := by simp
  rw [e, decodeEntities_amp _ hat, decodeEntities_letters]
  · simp
  · intro hm
    simp only [List.mem_append] at hm
    rcases hm with (hm | hm) | hm
    · revert hm; decide
    · exact not_mem_dec (by decide) hm
    · revert hm; decide

example : (55296).isValidChar → False := by decide

/-- **C46**: decoding never lengthens a text. -/
theorem C46_length (s : Str) : (decodeEntities s).length ≤ s.length := by
  suffices ∀ n (s : Str), s.length ≤ n → (decodeEntities s).length ≤ s.length from this _ s (Nat.le_refl _)
  intro n
  induction n with
  | zero => intro s h; cases s with
    | nil => simp [decodeEntities_nil]
    | cons c s => simp at h
  | succ n ih =>
    intro s h
    cases s with
    | nil => simp [decodeEntities_nil]
    | cons c s =>
      simp only [List.length_cons] at h
      by_cases hc : c = '&'
      · subst hc
        cases he : entityAt s with
        | none =>
          rw [decodeEntities_amp s he]
          have := ih s (by omega)
          simp; omega
        | some p =>
          obtain ⟨d, rest⟩ := p
          rw [decodeEntities_entity he]
          have h1 := entityAt_shorter he
          have := ih rest (by omega)
          simp; omega
      · rw [decodeEntities_plain s hc]
        have := ih s (by omega)
        simp; omega

example : decodeEntities c!"a &amp;lt; b &#65;&#x42; &nope; & c" = c!"a &lt; b AB &nope; & c" := by decide +kernel

/-! ### C49: truncation -/

theorem takeBytes_prefix (n : Nat) (s : Str) : takeBytes n s <+: s := by
  induction s generalizing n with
  | nil => simp [takeBytes]
  | cons c s ih =>
    unfold takeBytes
    split
    · exact (List.prefix_cons_inj _).mpr (ih _)
    · exact List.nil_prefix

theorem takeBytes_len (n : Nat) (s : Str) : utf8Len (takeBytes n s) ≤ n := by
  induction s generalizing n with
  | nil => simp [takeBytes, utf8Len]
  | cons c s ih =>
    unfold takeBytes
    split
    · have := ih (n - utf8Size c)
      simp only [utf8Len, List.map_cons, List.sum_cons] at *
      omega
    · simp [utf8Len]

/-- No longer prefix fits. -/
theorem takeBytes_longest (n : Nat) (s p : Str) (hp : p <+: s) (hn : utf8Len p ≤ n) : p <+: takeBytes n s := by
  induction s generalizing n p with
  | nil => simpa [takeBytes] using hp
  | cons c s ih =>
    cases p with
    | nil => exact List.nil_prefix
    | cons d p =>
      obtain ⟨rfl, hp'⟩ := List.cons_prefix_cons.mp hp
      simp only [utf8Len, List.map_cons, List.sum_cons] at hn
      unfold takeBytes
      rw [if_pos (by omega)]
      exact (List.prefix_cons_inj _).mpr (ih _ _ hp' (by simp only [utf8Len]; omega))

theorem trimEnd_prefix (s : Str) : trimEnd s <+: s := by
  have := List.dropWhile_suffix (l := s.reverse) isWs
  have h := List.reverse_prefix.mpr this
  rw [List.reverse_reverse] at h
  exact h

theorem utf8Len_prefix {p s : Str} (h : p <+: s) : utf8Len p ≤ utf8Len s := by
  obtain ⟨t, rfl⟩ := h
  simp only [utf8Len, List.map_append, List.sum_append]
  omega

theorem rsplit_prefix {c : Char} {s a b : Str} (h : rsplitOnceChar? c s = some (a, b)) : s = a ++ c :: b := by
  induction s generalizing a b with
  | nil => simp [rsplitOnceChar?] at h
  | cons x s ih =>
    unfold rsplitOnceChar? at h
    split at h
    · rename_i a' b' h'
      simp only [Option.some.injEq, Prod.mk.injEq] at h
      obtain ⟨rfl, rfl⟩ := h
      simp [ih h']
    · split at h
      · simp only [Option.some.injEq, Prod.mk.injEq] at h
        obtain ⟨rfl, rfl⟩ := h
        simp_all
      · simp at h

/-- **C49**: a text that fits is returned unchanged. -/
theorem C49_fits {s : Str} {n : Nat} (h : utf8Len s ≤ n) : truncateText s n = s := by simp [truncateText, h]

/-- **C49**: otherwise the result is a prefix of the text that fits in the budget, followed by an ellipsis. It
consists of whole characters, since it is a list of them. -/
theorem C49_prefix {s : Str} {n : Nat} (h : n < utf8Len s) :
    ∃ p, p <+: s ∧ utf8Len p ≤ n ∧ truncateText s n = p ++ c!"..." := by
  unfold truncateText
  rw [if_neg (by omega)]
  have hcut := takeBytes_prefix n s
  have hlen := takeBytes_len n s
  simp only
  split
  · rename_i a b hs
    have ha : a <+: takeBytes n s := ⟨_, (rsplit_prefix hs).symm⟩
    split
    · exact ⟨trimEnd a, (trimEnd_prefix a).trans (ha.trans hcut),
        Nat.le_trans (utf8Len_prefix ((trimEnd_prefix a).trans ha)) hlen, rfl⟩
    · exact ⟨_, (trimEnd_prefix _).trans hcut, Nat.le_trans (utf8Len_prefix (trimEnd_prefix _)) hlen, rfl⟩
  · exact ⟨_, (trimEnd_prefix _).trans hcut, Nat.le_trans (utf8Len_prefix (trimEnd_prefix _)) hlen, rfl⟩

/-- **C49**: the result never exceeds the budget by more than the ellipsis. -/
theorem C49_bound (s : Str) (n : Nat) : utf8Len (truncateText s n) ≤ n + 3 := by
  by_cases h : utf8Len s ≤ n
  · rw [C49_fits h]; omega
  · obtain ⟨p, _, hp, he⟩ := C49_prefix (s := s) (n := n) (by omega)
    rw [he]
    have : utf8Len c!"..." = 3 := by decide
    simp only [utf8Len, List.map_append, List.sum_append] at *
    omega

/-- **C49**: the cut is as late as possible if there is no word boundary in the second half of the budget. -/
theorem C49_no_space {s : Str} {n : Nat} (h : n < utf8Len s) (q : Str) (hq : q <+: s) (hn : utf8Len q ≤ n)
    (hmax : ∀ p, p <+: s → utf8Len p ≤ n → p <+: q) (hsp : ∀ a b, q = a ++ ' ' :: b → ' ' ∉ b → utf8Len a ≤ n / 2) :
    truncateText s n = trimEnd q ++ c!"..." := by
  have hcut : takeBytes n s = q :=
    (hmax _ (takeBytes_prefix n s) (takeBytes_len n s)).eq_of_length_le
      (takeBytes_longest n s q hq hn).length_le
  unfold truncateText
  rw [if_neg (by omega)]
  simp only [hcut]
  split
  · rename_i a b hs
    have hb : ' ' ∉ b := by
      intro hb
      clear hcut hsp hmax hq hn
      induction q generalizing a b with
      | nil => simp [rsplitOnceChar?] at hs
      | cons x q ih =>
        unfold rsplitOnceChar? at hs
        split at hs
        · rename_i a' b' h'
          simp only [Option.some.injEq, Prod.mk.injEq] at hs
          obtain ⟨rfl, rfl⟩ := hs
          exact ih _ _ h' hb
        · split at hs
          · rename_i hnone _
            simp only [Option.some.injEq, Prod.mk.injEq] at hs
            obtain ⟨rfl, rfl⟩ := hs
            clear ih
            rename_i hx
            clear hx
            induction q with
            | nil => simp at hb
            | cons y q ih =>
              unfold rsplitOnceChar? at hnone
              split at hnone
              · simp at hnone
              · split at hnone
                · simp at hnone
                · rename_i h0 hy
                  refine ih h0 ?_
                  rcases List.mem_cons.mp hb with hb | hb
                  · exact absurd hb.symm hy
                  · exact hb
          · simp at hs
    rw [if_neg (by have := hsp a b (rsplit_prefix hs) hb; omega)]
  · rfl

/-- **C49**: if the longest part that fits has a last space in the second half of the budget, the text is cut
there. -/
theorem C49_at_word {s : Str} {n : Nat} (h : n < utf8Len s) (a b : Str) (hq : a ++ ' ' :: b <+: s)
    (hn : utf8Len (a ++ ' ' :: b) ≤ n) (hmax : ∀ p, p <+: s → utf8Len p ≤ n → p <+: a ++ ' ' :: b)
    (hb : ' ' ∉ b) (ha : n / 2 < utf8Len a) : truncateText s n = trimEnd a ++ c!"..." := by
  have hcut : takeBytes n s = a ++ ' ' :: b :=
    (hmax _ (takeBytes_prefix n s) (takeBytes_len n s)).eq_of_length_le
      (takeBytes_longest n s _ hq hn).length_le
  have hr : rsplitOnceChar? ' ' (a ++ ' ' :: b) = some (a, b) := rsplitOnceChar?_append hb
  unfold truncateText
  rw [if_neg (by omega)]
  simp only [hcut, hr]
  rw [if_pos ha]

example : truncateText c!"The quick brown fox" 12 = c!"The quick..." ∧ truncateText c!"äöü" 3 = c!"ä..." := by decide +kernel

end PptRs.Props
