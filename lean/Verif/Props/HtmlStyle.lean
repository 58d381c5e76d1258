import Verif.Lemmas.HtmlStyle
import Verif.Spec.HtmlStyle
import Verif.Props.HtmlExact
import Verif.Props.Chains
import Verif.Props.MermaidEntities
import Verif.Props.MermaidSections
import Verif.Props.Quick
import Verif.Lemmas.Float

/-!
# C142: styles of web pages
-/

namespace PptRs.Props
open PptRs PptRs.Spec PptRs.Html PptRs.Chains

/-! ### The last setting -/

theorem lastSet_step {ω α : Type} (sets : ω → Option α) (b : α) (d : ω) (l : List ω) :
    lastSet sets b (d :: l) = lastSet sets ((sets d).getD b) l := by
  unfold lastSet
  cases h : sets d with
  | none => simp [h]
  | some x =>
    rw [List.filterMap_cons_some h, List.getLast?_cons]
    cases (List.filterMap sets l).getLast? <;> rfl

theorem lastSet_append {ω α : Type} (sets : ω → Option α) (b : α) (l m : List ω) :
    lastSet sets b (l ++ m) = lastSet sets (lastSet sets b l) m := by
  induction l generalizing b with
  | nil => rfl
  | cons d l ih => rw [List.cons_append, lastSet_step, ih, lastSet_step]

theorem lastSet_map {ω α β : Type} (g : α → β) (sets : ω → Option α) (b : α) (l : List ω) :
    g (lastSet sets b l) = lastSet (fun d => (sets d).map g) (g b) l := by
  induction l generalizing b with
  | nil => rfl
  | cons d l ih =>
    rw [lastSet_step, lastSet_step, ih]
    cases sets d <;> rfl

theorem lastSet_or {ω α : Type} (sets : ω → Option α) (b : Option α) (l : List ω) :
    (lastSet (fun d => (sets d).map some) none l).or b = lastSet (fun d => (sets d).map some) b l := by
  have key : ∀ x : Option α, (lastSet (fun d => (sets d).map some) x l).or b = lastSet (fun d => (sets d).map some) (x.or b) l := by
    induction l with
    | nil => intro x; rfl
    | cons d l ih =>
      intro x
      rw [lastSet_step, lastSet_step, ih]
      cases sets d <;> rfl
  exact key none

/-! ### The style of some declarations -/

/-- What the declarations set, with the values as the style holds them. -/
def styleOf (ds : List Decl) : InlineStyle where
  color := lastSet (fun d => (match d with | .color c => some (hexColor upperHex c) | _ => none).map some) none ds
  backgroundColor := lastSet (fun d => (match d with | .background c => some (hexColor upperHex c) | _ => none).map some) none ds
  fontSize := lastSet (fun d => (match d with | .size n => some n | _ => none).map some) none ds
  fontWeight := lastSet (fun d => (match d with | .weight b => some (Decl.value (.weight b)) | _ => none).map some) none ds
  fontStyle := lastSet (fun d => (match d with | .slant b => some (Decl.value (.slant b)) | _ => none).map some) none ds
  textDecoration := lastSet (fun d => (match d with | .line u t => some (Decl.value (.line u t)) | _ => none).map some) none ds
  fontFamily := lastSet (fun d => (match d with | .font n => some n | _ => none).map some) none ds

theorem styleOf_nil : styleOf [] = {} := rfl

theorem styleOf_merge (a b : List Decl) : (styleOf a).merge (styleOf b) = styleOf (a ++ b) := by
  simp only [styleOf, InlineStyle.merge, lastSet_or, lastSet_append, Option.or_none]

/-- One more declaration. -/
def addDecl (s : InlineStyle) : Decl → InlineStyle
  | .color c => { s with color := some (hexColor upperHex c) }
  | .background c => { s with backgroundColor := some (hexColor upperHex c) }
  | .size n => { s with fontSize := some n }
  | .weight b => { s with fontWeight := some (Decl.value (.weight b)) }
  | .slant b => { s with fontStyle := some (Decl.value (.slant b)) }
  | .line u t => { s with textDecoration := some (Decl.value (.line u t)) }
  | .font n => { s with fontFamily := some n }

theorem styleOf_snoc (ds : List Decl) (d : Decl) : styleOf (ds ++ [d]) = addDecl (styleOf ds) d := by
  simp only [styleOf, lastSet_append]
  cases d <;> rfl

theorem isEmpty_addDecl (s : InlineStyle) (d : Decl) : (addDecl s d).isEmpty = false := by
  cases d <;> simp [addDecl, InlineStyle.isEmpty]

theorem isEmpty_styleOf (ds : List Decl) : (styleOf ds).isEmpty = decide (ds = []) := by
  induction ds using List.reverseRecOn with
  | nil => rfl
  | append_singleton ds d => rw [styleOf_snoc, isEmpty_addDecl]; simp

/-! ### Values -/

theorem hex_byte : ∀ b : Fin 256,
    ([(lowerHex[b.val / 16]?).getD '0', (lowerHex[b.val % 16]?).getD '0'].map Char.toUpper =
      [(upperHex[b.val / 16]?).getD '0', (upperHex[b.val % 16]?).getD '0']) ∧
    hex2 (UInt8.ofNat b.val) = [(upperHex[b.val / 16]?).getD '0', (upperHex[b.val % 16]?).getD '0'] ∧
    ([(lowerHex[b.val / 16]?).getD '0', (lowerHex[b.val % 16]?).getD '0'].all fun c => c.isAlphanum) = true := by
  decide +kernel

theorem hexColor_upper (c : Fin 256 × Fin 256 × Fin 256) : (hexColor lowerHex c).map Char.toUpper = hexColor upperHex c := by
  simp only [hexColor, List.map_append, (hex_byte _).1]

theorem hexColor_hex2 (c : Fin 256 × Fin 256 × Fin 256) :
    hexColor upperHex c = hex2 (UInt8.ofNat c.1.val) ++ hex2 (UInt8.ofNat c.2.1.val) ++ hex2 (UInt8.ofNat c.2.2.val) := by
  simp only [hexColor, (hex_byte _).2.1]

theorem cleanColor_hexColor (c : Fin 256 × Fin 256 × Fin 256) : cleanColor (hexColor upperHex c) = hexColor upperHex c := by
  rw [hexColor_hex2, cleanColor_hex2]

theorem hexColor_word (c : Fin 256 × Fin 256 × Fin 256) : ∀ x ∈ hexColor lowerHex c, x.isAlphanum = true := by
  have h := fun b => List.all_eq_true.mp (hex_byte b).2.2
  intro x hx
  simp only [hexColor, List.mem_append] at hx
  rcases hx with (hx | hx) | hx
  · exact h _ _ hx
  · exact h _ _ hx
  · exact h _ _ hx

theorem alnum_ascii {c : Char} (h : c.isAlphanum = true) : c.toNat < 128 := by
  simp only [Char.isAlphanum, Char.isAlpha, Char.isUpper, Char.isLower, Char.isDigit, Bool.or_eq_true, decide_eq_true_eq,
    Bool.and_eq_true, ge_iff_le, UInt32.le_iff_toNat_le] at h
  have e : c.val.toNat = c.toNat := rfl
  simp only [e] at h
  have h1 : 'z'.val.toNat = 122 := rfl
  have h2 : 'Z'.val.toNat = 90 := rfl
  have h3 : '9'.val.toNat = 57 := rfl
  simp only [h1, h2] at h
  have h4 : (57 : UInt32).toNat = 57 := rfl
  have h5 : (90 : UInt32).toNat = 90 := rfl
  have h6 : (122 : UInt32).toNat = 122 := rfl
  omega

theorem word_tight {s : Str} (h : ∀ c ∈ s, c.isAlphanum = true) (hne : s ≠ []) : Tight s :=
  ⟨fun c hc => isWs_word (.inl (h c (List.mem_of_mem_head? hc))), fun c hc => isWs_word (.inl (h c (List.mem_of_mem_getLast? hc))), hne⟩

theorem Tight.cons_word {c : Char} {s : Str} (hc : isWs c = false) (h : Tight s) : Tight (c :: s) := by
  refine ⟨fun x hx => by cases hx; exact hc, fun x hx => h.2.1 x ?_, by simp⟩
  obtain ⟨_, _, hne⟩ := h
  cases s with
  | nil => exact absurd rfl hne
  | cons a s => simpa using hx

theorem Tight.around {a b m : Str} (ha : Tight a) (hb : Tight b) : Tight (a ++ m ++ b) := by
  refine ⟨fun x hx => ha.1 x ?_, fun x hx => hb.2.1 x ?_, by simp [ha.2.2]⟩
  · obtain ⟨_, _, hne⟩ := ha
    cases a with
    | nil => exact absurd rfl hne
    | cons y a => simpa using hx
  · obtain ⟨_, _, hne⟩ := hb
    rw [List.getLast?_append_of_ne_nil _ hne] at hx
    exact hx

theorem hash_color {s : Str} (h : ∀ c ∈ s, c.isAlphanum = true) (hne : s ≠ []) : parseCssColor ('#' :: s) = hashColor s := by
  unfold parseCssColor
  rw [trim_tight ((word_tight h hne).cons_word (by decide))]
  rfl

theorem utf8Len_word {s : Str} (h : ∀ c ∈ s, c.isAlphanum = true) : utf8Len s = s.length :=
  utf8Len_ascii fun c hc => alnum_ascii (h c hc)

/-- **C142.** Six hexadecimal digits. -/
theorem C142_hex (c : Fin 256 × Fin 256 × Fin 256) :
    parseCssColor (c!"#" ++ hexColor lowerHex c) = some (some (hexColor upperHex c)) ∧
    parseCssColor (c!"#" ++ hexColor upperHex c) = some (some (hexColor upperHex c)) := by
  have hu : ∀ x ∈ hexColor upperHex c, x.isAlphanum = true := by
    rw [← hexColor_upper]
    intro x hx
    obtain ⟨y, hy, rfl⟩ := List.mem_map.mp hx
    have : ∀ z : Fin 256, ([(lowerHex[z.val / 16]?).getD '0', (lowerHex[z.val % 16]?).getD '0'].all fun c => c.toUpper.isAlphanum) = true := by
      decide +kernel
    have h := fun b => List.all_eq_true.mp (this b)
    simp only [hexColor, List.mem_append] at hy
    rcases hy with (hy | hy) | hy
    · exact h _ _ hy
    · exact h _ _ hy
    · exact h _ _ hy
  have key : ∀ s, (∀ x ∈ s, x.isAlphanum = true) → s.length = 6 → parseCssColor ('#' :: s) = some (some (s.map Char.toUpper)) := by
    intro s h hl
    rw [hash_color h (by rintro rfl; cases hl), hashColor, utf8Len_word h, hl]
    rfl
  constructor
  · exact (key _ (hexColor_word c) rfl).trans (by rw [hexColor_upper])
  · refine (key _ hu rfl).trans ?_
    have := cleanColor_hexColor c
    have h2 : ∀ z : Fin 256, ([(upperHex[z.val / 16]?).getD '0', (upperHex[z.val % 16]?).getD '0'].map Char.toUpper) =
      [(upperHex[z.val / 16]?).getD '0', (upperHex[z.val % 16]?).getD '0'] := by decide +kernel
    simp only [hexColor, List.map_append, h2]

example : hexColor lowerHex (255, 160, 7) = c!"ffa007" := by decide +kernel

/-- **C142.** Three hexadecimal digits stand for six. -/
theorem C142_short_hex : ∀ r g b : Fin 16,
    parseCssColor (c!"#" ++ [r, g, b].map fun d => (lowerHex[d.val]?).getD '0') =
      some (some (hexColor upperHex (⟨17 * r.val, by omega⟩, ⟨17 * g.val, by omega⟩, ⟨17 * b.val, by omega⟩))) := by
  have h1 : ∀ d : Fin 16, ((lowerHex[d.val]?).getD '0').isAlphanum = true := by decide +kernel
  have h2 : ∀ d : Fin 16, [((lowerHex[d.val]?).getD '0').toUpper, ((lowerHex[d.val]?).getD '0').toUpper] =
      [(upperHex[17 * d.val / 16]?).getD '0', (upperHex[17 * d.val % 16]?).getD '0'] := by decide +kernel
  intro r g b
  have hw : ∀ x ∈ [r, g, b].map fun d => (lowerHex[d.val]?).getD '0', x.isAlphanum = true := by
    intro x hx
    obtain ⟨d, _, rfl⟩ := List.mem_map.mp hx
    exact h1 d
  refine (hash_color hw (by simp)).trans ?_
  rw [hashColor, utf8Len_word hw]
  simp only [List.length_map, List.length_cons, List.length_nil, hexColor, ← h2]
  rfl

theorem parseU8_dec (n : Fin 256) : parseU8? (dec n.val) = some (UInt8.ofNat n.val) := by
  rw [parseU8?, parseU32_dec (by omega)]
  simp [n.isLt]

/-- **C142.** Red, green and blue as numbers; what follows, such as opacity, is ignored. -/
theorem C142_rgb (c : Fin 256 × Fin 256 × Fin 256) (alpha : Str) (ha : ')' ∉ alpha) :
    parseCssColor (c!"rgb(" ++ dec c.1.val ++ c!", " ++ dec c.2.1.val ++ c!", " ++ dec c.2.2.val ++ c!")") =
      some (some (hexColor upperHex c)) ∧
    parseCssColor (c!"rgba(" ++ dec c.1.val ++ c!", " ++ dec c.2.1.val ++ c!", " ++ dec c.2.2.val ++ c!", " ++ alpha ++ c!")") =
      some (some (hexColor upperHex c)) := by
  have hd : ∀ n : Fin 256, ',' ∉ dec n.val ∧ ')' ∉ dec n.val := fun n => ⟨dec_notMem rfl, dec_notMem rfl⟩
  have hs : ∀ rest : List Str, ∀ tail : Str, splitChar ',' tail = rest → splitChar ',' (dec c.1.val ++ c!", " ++ dec c.2.1.val ++ c!", " ++ dec c.2.2.val ++ ',' :: tail) =
      dec c.1.val :: (c!" " ++ dec c.2.1.val) :: (c!" " ++ dec c.2.2.val) :: rest := by
    intro rest tail ht
    have e : dec c.1.val ++ c!", " ++ dec c.2.1.val ++ c!", " ++ dec c.2.2.val ++ ',' :: tail =
        dec c.1.val ++ ',' :: ((c!" " ++ dec c.2.1.val) ++ ',' :: ((c!" " ++ dec c.2.2.val) ++ ',' :: tail)) := by simp
    rw [e, splitChar_append_sep (hd _).1, splitChar_append_sep (by simp [(hd c.2.1).1]), splitChar_append_sep (by simp [(hd c.2.2).1]), ht]
  have hs0 : splitChar ',' (dec c.1.val ++ c!", " ++ dec c.2.1.val ++ c!", " ++ dec c.2.2.val) =
      dec c.1.val :: (c!" " ++ dec c.2.1.val) :: (c!" " ++ dec c.2.2.val) :: [] := by
    have e : dec c.1.val ++ c!", " ++ dec c.2.1.val ++ c!", " ++ dec c.2.2.val =
        dec c.1.val ++ ',' :: ((c!" " ++ dec c.2.1.val) ++ ',' :: (c!" " ++ dec c.2.2.val)) := by simp
    rw [e, splitChar_append_sep (hd _).1, splitChar_append_sep (by simp [(hd c.2.1).1]), splitChar_of_notMem (by simp [(hd c.2.2).1])]
  have fin : ∀ body rest, splitChar ',' body = dec c.1.val :: (c!" " ++ dec c.2.1.val) :: (c!" " ++ dec c.2.2.val) :: rest →
      rgbColor (body ++ c!")") = some (hexColor upperHex c) := by
    intro body rest h
    have : rsplitOnceChar? ')' (body ++ c!")") = some (body, []) := rsplitOnceChar?_append (by simp)
    rw [rgbColor, this, Option.bind_some, h]
    simp only [trim_tight (dec_tight _), trim_indent (p := c!" ") (by decide) (dec_tight _), parseU8_dec, hexColor_hex2]
  have lookup : ∀ tail, (namedColors.find? fun p => p.1 = 'r' :: 'g' :: 'b' :: tail) = none := by
    intro tail
    rw [List.find?_eq_none]
    have : ∀ p ∈ namedColors, ¬ c!"rgb" <+: p.1 := by decide +kernel
    intro p hp h
    simp only [decide_eq_true_eq] at h
    exact this p hp (by rw [h]; exact ⟨tail, rfl⟩)
  have tight : ∀ m, Tight ('r' :: (m ++ c!")")) := fun m =>
    Tight.around (a := c!"r") (m := m) (b := c!")") ⟨by decide, by decide, by decide⟩ ⟨by decide, by decide, by decide⟩
  constructor
  · have e : c!"rgb(" ++ dec c.1.val ++ c!", " ++ dec c.2.1.val ++ c!", " ++ dec c.2.2.val ++ c!")" =
        'r' :: ((c!"gb(" ++ (dec c.1.val ++ c!", " ++ dec c.2.1.val ++ c!", " ++ dec c.2.2.val)) ++ c!")") := by simp
    rw [e, parseCssColor, trim_tight (tight _)]
    show some (otherColor ('r' :: 'g' :: 'b' :: ('(' :: ((dec c.1.val ++ c!", " ++ dec c.2.1.val ++ c!", " ++ dec c.2.2.val) ++ c!")")))) = _
    rw [otherColor, lookup, Option.map_none, Option.none_or]
    show some (rgbColor _) = _
    rw [fin _ _ hs0]
  · have e : c!"rgba(" ++ dec c.1.val ++ c!", " ++ dec c.2.1.val ++ c!", " ++ dec c.2.2.val ++ c!", " ++ alpha ++ c!")" =
        'r' :: ((c!"gba(" ++ (dec c.1.val ++ c!", " ++ dec c.2.1.val ++ c!", " ++ dec c.2.2.val ++ ',' :: (' ' :: alpha))) ++ c!")") := by simp
    rw [e, parseCssColor, trim_tight (tight _)]
    show some (otherColor ('r' :: 'g' :: 'b' :: ('a' :: '(' :: ((dec c.1.val ++ c!", " ++ dec c.2.1.val ++ c!", " ++ dec c.2.2.val ++ ',' :: (' ' :: alpha)) ++ c!")")))) = _
    rw [otherColor, lookup, Option.map_none, Option.none_or]
    show some (rgbColor _) = _
    rw [fin _ _ (hs _ _ rfl)]

/-- **C142.** The names of colours have the values of the CSS standard. -/
theorem C142_names : ∀ p ∈ cssColors, parseCssColor p.1 = some (some (hexColor upperHex p.2)) := by decide +kernel

theorem parseF64_dec {n : Nat} : parseF64? (dec n) = some (Fl.mk Fl.b64 n) := by
  have hd : ∀ c ∈ dec n, isDig c = true := fun c hc => Nat.isDigit_of_mem_toDigits (by omega) (by omega) hc
  have hne := dec_ne_nil n
  have hsign : sign (dec n) = (false, dec n) := by
    cases h : dec n with
    | nil => exact absurd h hne
    | cons a t =>
      have ha := hd a (by rw [h]; simp)
      unfold sign
      split
      · rename_i heq; cases heq; cases ha
      · rename_i heq; cases heq; cases ha
      · rfl
  have hlow : ∀ w : Str, (w.any fun c => c.isAlpha) = true → (dec n).map Char.toLower ≠ w := by
    intro w hw he
    subst he
    rw [List.any_map, List.any_eq_true] at hw
    obtain ⟨c, hc, hc'⟩ := hw
    have h1 := hd c hc
    simp only [Function.comp_apply] at hc'
    have h2 : c.toLower = c := by
      simp only [isDig, Char.isDigit, Bool.and_eq_true, decide_eq_true_eq] at h1
      unfold Char.toLower
      split
      · rename_i h; exfalso
        have := h1.2; have := h.1
        simp only [UInt32.le_iff_toNat_le] at *
        have : '9'.val.toNat = 57 := rfl
        have : 'A'.val.toNat = 65 := rfl
        omega
      · rfl
    rw [h2] at hc'
    simp only [isDig, Char.isDigit, Char.isAlpha, Char.isUpper, Char.isLower, Bool.and_eq_true, Bool.or_eq_true, decide_eq_true_eq] at h1 hc'
    simp only [ge_iff_le, UInt32.le_iff_toNat_le] at h1 hc'
    have : '9'.val.toNat = 57 := rfl
    have : 'A'.val.toNat = 65 := rfl
    have : 'a'.val.toNat = 97 := rfl
    have h3 := h1.2
    rcases hc' with h | h <;> have := h.1 <;> omega
  have hdig : digits (dec n) = (dec n, []) := by
    unfold digits
    rw [(takeWhile_all hd).1, (takeWhile_all hd).2]
  unfold parseF64?
  simp only [hsign, hlow c!"inf" rfl, hlow c!"infinity" rfl, hlow c!"nan" rfl, or_self, if_false, hdig, hne, and_true]
  simp only [decimal, List.append_nil, List.length_nil]
  have : Nat.ofDigitChars 10 (dec n) 0 = n := Nat.ofDigitChars_ten_toDigits
  rw [this]
  simp

/-- **C142.** Sizes in points are kept. -/
theorem C142_points {n : Nat} (h : n < 4294967296) : parseFontSize (dec n ++ c!"pt") = some n := by
  have ht : Tight (dec n ++ c!"pt") := by
    have := Tight.around (m := []) (dec_tight n) (b := c!"pt") ⟨by decide, by decide, by decide⟩
    simpa using this
  have h1 : stripSuffix? c!"px" (dec n ++ c!"pt") = none := by
    simp [stripSuffix?, stripPrefix?]
  have h2 : stripSuffix? c!"pt" (dec n ++ c!"pt") = some (dec n) := by
    simp [stripSuffix?, stripPrefix?]
  unfold parseFontSize
  rw [trim_tight ht]
  simp only [h1, h2, trim_tight (dec_tight n), parseF64_dec, Option.map_some]
  rw [Fl.mk_nat Fl.good64 (by have : 2 ^ Fl.b64.digits = 9007199254740992 := by decide
                              omega)]
  have : roundAway (.fin (n : Rat)) = .fin (n : Rat) := by
    have h0 : ¬ ((n : Rat) < 0) := by simp
    have hf : ⌊(n : Rat) + 1 / 2⌋ = (n : Int) := by
      rw [Int.floor_eq_iff]; push_cast; constructor <;> linarith
    simp only [roundAway, if_neg h0, hf, Int.cast_natCast]
  rw [this]
  simp only [Fl.toU, Int.floor_natCast, Int.toNat_natCast]
  have : Fl.maxU32 = 4294967295 := rfl
  exact congrArg some (Nat.min_eq_left (by omega))

theorem roundAway_near {v : Rat} {n : Nat} (h1 : (n : Rat) - 1 / 2 ≤ v) (h2 : v < n + 1 / 2) (h0 : 0 ≤ v) (hn : n < 4294967296) :
    Fl.toU Fl.maxU32 (roundAway (.fin v)) = n := by
  have hf : ⌊v + 1 / 2⌋ = (n : Int) := by
    rw [Int.floor_eq_iff]; push_cast; constructor <;> linarith
  simp only [roundAway, if_neg (not_lt.mpr h0), hf, Int.cast_natCast]
  simp only [Fl.toU, Int.floor_natCast, Int.toNat_natCast]
  have : Fl.maxU32 = 4294967295 := rfl
  exact Nat.min_eq_left (by omega)

/-- **C142.** Sizes in pixels are divided by 1.333 and rounded. -/
theorem C142_pixels {n : Nat} (h : n < 4294967296) : parseFontSize (dec n ++ c!"px") = some ((2000 * n + 1333) / 2666) := by
  have ht : Tight (dec n ++ c!"px") := by
    have := Tight.around (m := []) (dec_tight n) (b := c!"px") ⟨by decide, by decide, by decide⟩
    simpa using this
  have h1 : stripSuffix? c!"px" (dec n ++ c!"px") = some (dec n) := by
    simp [stripSuffix?, stripPrefix?]
  unfold parseFontSize
  rw [trim_tight ht]
  simp only [h1, trim_tight (dec_tight n), parseF64_dec, Option.map_some]
  have hp : (2 : Nat) ^ Fl.b64.digits = 9007199254740992 := by decide
  have hpq : (2 : Rat) ^ Fl.b64.digits = 9007199254740992 := by exact_mod_cast hp
  rw [Fl.mk_nat Fl.good64 (by omega), Fl.mk_of_small Fl.good64 (by norm_num) (by rw [hpq]; norm_num)]
  have hd := Fl.rnd64_rel (1333 / 1000)
  generalize Fl.rnd Fl.b64 (1333 / 1000) = d at hd ⊢
  rw [abs_le] at hd
  norm_num at hd
  have hd1 : (1333 : Rat) / 1000 - 1 / 10 ^ 15 ≤ d := by linarith [hd.1]
  have hd2 : d ≤ (1333 : Rat) / 1000 + 1 / 10 ^ 15 := by linarith [hd.2]
  have hd0 : (0 : Rat) < d := by linarith
  have hn0 : (0 : Rat) ≤ n := by positivity
  have hnq : (n : Rat) ≤ 4294967295 := by exact_mod_cast (by omega : n ≤ 4294967295)
  have hq0 : (0 : Rat) ≤ n / d := by positivity
  have hqlo : (1000 : Rat) * n / 1333 - 1 / 10 ^ 5 ≤ n / d := by
    rw [le_div_iff₀ hd0]
    nlinarith
  have hqhi : (n : Rat) / d ≤ 1000 * n / 1333 + 1 / 10 ^ 5 := by
    rw [div_le_iff₀ hd0]
    nlinarith
  have hdiv : Fl.div Fl.b64 (.fin (n : Rat)) (.fin d) = .fin (Fl.rnd Fl.b64 (n / d)) := by
    have : d ≠ 0 := hd0.ne'
    simp only [Fl.div, this, if_false]
    rw [Fl.mk_of_small Fl.good64 hq0 (by rw [hpq]; linarith)]
  rw [hdiv]
  have hr := Fl.rnd64_rel (n / d)
  have hrnn := Fl.rnd_nonneg Fl.b64 hq0
  rw [abs_of_nonneg hq0, abs_le] at hr
  norm_num at hr
  generalize Fl.rnd Fl.b64 (n / d) = r at hr hrnn ⊢
  congr 1
  have key : (2666 * ((2000 * n + 1333) / 2666) ≤ 2000 * n + 1333 ∧ 2000 * n + 1333 + 1 ≤ 2666 * ((2000 * n + 1333) / 2666) + 2666) := by omega
  have odd : 2666 * ((2000 * n + 1333) / 2666) + 1 ≤ 2000 * n + 1333 := by omega
  generalize (2000 * n + 1333) / 2666 = m at key odd ⊢
  have o' : (2666 * m + 1 : Rat) ≤ 2000 * n + 1333 := by exact_mod_cast odd
  have k' : (2000 * n + 1333 + 1 : Rat) ≤ 2666 * m + 2666 := by exact_mod_cast key.2
  refine roundAway_near ?_ ?_ hrnn (by omega)
  · linarith [hr.1]
  · linarith [hr.2]

/-- **C142.** A pixel is three quarters of a point, for sizes up to 1334. -/
theorem C142_pixels_partial : ∀ n ≤ 1334, parseFontSize (dec n ++ c!"px") = some ((3 * n + 2) / 4) := by
  intro n hn
  rw [C142_pixels (by omega)]
  congr 1
  omega

/-- **C142 does not hold in full.** A pixel is 3/4 of a point, but sizes in pixels are divided by 1.333, so large sizes come
out larger: 1335 pixels as 1002 points instead of 1001, and 4 million pixels as 3 000 750 points. -/
theorem C142_pixels_violated : parseFontSize c!"1335px" = some 1002 ∧ (3 * 1335 + 2) / 4 = 1001 ∧
    parseFontSize c!"4000000px" = some 3000750 := by decide +kernel

theorem ofDigitChars_from (f : Str) (k : Nat) : Nat.ofDigitChars 10 f k = k * 10 ^ f.length + Nat.ofDigitChars 10 f 0 := by
  induction f generalizing k with
  | nil => simp [Nat.ofDigitChars]
  | cons c f ih =>
    have e : ∀ k, Nat.ofDigitChars 10 (c :: f) k = Nat.ofDigitChars 10 f (10 * k + (c.toNat - '0'.toNat)) := fun _ => rfl
    rw [e, e, ih, ih (10 * 0 + _), List.length_cons, Nat.pow_succ]
    ring

/-- **C142.** A number with a decimal point is the floating point number nearest to it. -/
theorem C142_decimal (n : Nat) {f : Str} (hf : ∀ c ∈ f, c.isDigit = true) :
    parseF64? (dec n ++ '.' :: f) = some (Fl.mk Fl.b64 ((n : Rat) + (Nat.ofDigitChars 10 f 0 : Rat) / 10 ^ f.length)) := by
  have hd : ∀ c ∈ dec n, isDig c = true := fun c hc => Nat.isDigit_of_mem_toDigits (by omega) (by omega) hc
  have hne : dec n ≠ [] := dec_ne_nil n
  have hsign : sign (dec n ++ '.' :: f) = (false, dec n ++ '.' :: f) := by
    cases h : dec n with
    | nil => exact absurd h hne
    | cons a t =>
      have ha := hd a (by rw [h]; simp)
      unfold sign
      split
      · rename_i heq; cases heq; cases ha
      · rename_i heq; cases heq; cases ha
      · rfl
  have hlow : ∀ w : Str, '.' ∉ w → (dec n ++ '.' :: f).map Char.toLower ≠ w := by
    intro w hw he
    apply hw
    rw [← he, List.map_append]
    exact List.mem_append_right _ (by simp)
  have hdig : digits (dec n ++ '.' :: f) = (dec n, '.' :: f) := by
    unfold digits
    rw [List.takeWhile_append_of_pos hd, List.dropWhile_append_of_pos hd]
    simp [isDig, Char.isDigit]
  have hdig2 : digits f = (f, []) := by
    have hf' : ∀ c ∈ f, isDig c = true := hf
    unfold digits
    rw [(takeWhile_all hf').1, (takeWhile_all hf').2]
  unfold parseF64?
  simp only [hsign, hlow c!"inf" (by decide), hlow c!"infinity" (by decide), hlow c!"nan" (by decide), or_self, if_false, hdig, hdig2,
    hne, false_and]
  simp only [decimal, Bool.false_eq_true, if_false]
  have h1 : Nat.ofDigitChars 10 (dec n ++ f) 0 = Nat.ofDigitChars 10 f (Nat.ofDigitChars 10 (dec n) 0) := by
    simp [Nat.ofDigitChars, List.foldl_append]
  rw [h1, show Nat.ofDigitChars 10 (dec n) 0 = n from Nat.ofDigitChars_ten_toDigits, ofDigitChars_from f n]
  congr 2
  push_cast
  rw [zero_sub, zpow_neg, zpow_natCast]
  field_simp

theorem ofDigitChars_lt {f : Str} (hf : ∀ c ∈ f, c.isDigit = true) : Nat.ofDigitChars 10 f 0 < 10 ^ f.length := by
  induction f with
  | nil => simp [Nat.ofDigitChars]
  | cons c f ih =>
    have e : Nat.ofDigitChars 10 (c :: f) 0 = Nat.ofDigitChars 10 f (10 * 0 + (c.toNat - '0'.toNat)) := rfl
    rw [e, ofDigitChars_from, List.length_cons, Nat.pow_succ]
    have h1 := ih fun c hc => hf c (by simp [hc])
    have h2 : c.toNat - '0'.toNat ≤ 9 := by
      have := hf c (by simp)
      simp only [Char.isDigit, Bool.and_eq_true, decide_eq_true_eq] at this
      have h9 : c.toNat ≤ '9'.toNat := this.2
      have : '9'.toNat = 57 := rfl
      have : '0'.toNat = 48 := rfl
      omega
    nlinarith [Nat.mul_le_mul_right (10 ^ f.length) h2]

/-- **C142.** Sizes in points with a decimal fraction are rounded to the nearest whole number, halves up, for fractions of up to
six digits. -/
theorem C142_fractions_partial {n : Nat} (hn : n < 4294967295) {f : Str} (hf : ∀ c ∈ f, c.isDigit = true) (hl : f.length ≤ 6) :
    parseFontSize (dec n ++ '.' :: f ++ c!"pt") =
      some (if 10 ^ f.length ≤ 2 * Nat.ofDigitChars 10 f 0 then n + 1 else n) := by
  have ht : Tight (dec n ++ '.' :: f ++ c!"pt") :=
    Tight.around (dec_tight n) (b := c!"pt") ⟨by decide, by decide, by decide⟩
  have hws : ∀ c ∈ dec n ++ '.' :: f, isWs c = false := by
    have dig : ∀ c : Char, c.isDigit = true → isWs c = false := by
      intro c hc
      have hd : c.toNat ≤ 57 ∧ 48 ≤ c.toNat := by
        simp only [Char.isDigit, Bool.and_eq_true, decide_eq_true_eq] at hc
        exact ⟨hc.2, hc.1⟩
      cases hw : isWs c with
      | false => rfl
      | true => exact absurd hw (by unfold isWs; simp; omega)
    intro c hc
    rcases List.mem_append.mp hc with h | h
    · exact dig c (Nat.isDigit_of_mem_toDigits (by omega) (by omega) h)
    · rcases List.mem_cons.mp h with rfl | h
      · decide
      · exact dig c (hf c h)
  have ht2 : Tight (dec n ++ '.' :: f) :=
    ⟨fun c hc => hws c (List.mem_of_mem_head? hc), fun c hc => hws c (List.mem_of_mem_getLast? hc), by simp⟩
  have h1 : stripSuffix? c!"px" (dec n ++ '.' :: f ++ c!"pt") = none := by
    simp [stripSuffix?, stripPrefix?]
  have h2 : stripSuffix? c!"pt" (dec n ++ '.' :: f ++ c!"pt") = some (dec n ++ '.' :: f) := by
    simp [stripSuffix?, stripPrefix?]
  unfold parseFontSize
  rw [trim_tight ht]
  simp only [h1, h2, trim_tight ht2, C142_decimal n hf, Option.map_some]
  congr 1
  have hp : (2 : Nat) ^ Fl.b64.digits = 9007199254740992 := by decide
  have hpq : (2 : Rat) ^ Fl.b64.digits = 9007199254740992 := by exact_mod_cast hp
  have hk := ofDigitChars_lt hf
  generalize Nat.ofDigitChars 10 f 0 = k at hk ⊢
  have hT : (10 : Nat) ^ f.length ≤ 10 ^ 6 := Nat.pow_le_pow_right (by omega) hl
  have hT0 : 0 < (10 : Nat) ^ f.length := by positivity
  have hc : ((10 : Nat) ^ f.length : Rat) = (10 : Rat) ^ f.length := by norm_cast
  rw [← hc]
  have he : ∃ T : Nat, 10 ^ f.length = T := ⟨_, rfl⟩
  obtain ⟨T, hTe⟩ := he
  have hTq : ((10 : Nat) ^ f.length : Rat) = T := by exact_mod_cast hTe
  rw [hTq]
  rw [hTe] at hk hT hT0 ⊢
  have hTpos : (0 : Rat) < T := by exact_mod_cast hT0
  have hn0 : (0 : Rat) ≤ n := by positivity
  have hnq : (n : Rat) ≤ 4294967294 := by exact_mod_cast (by omega : n ≤ 4294967294)
  have hq0 : (0 : Rat) ≤ k / T := by positivity
  have hq1 : (k : Rat) / T ≤ 1 := by rw [div_le_one hTpos]; exact_mod_cast hk.le
  rw [Fl.mk_of_small Fl.good64 (by linarith) (by rw [hpq]; linarith)]
  have hr0 : 0 ≤ Fl.rnd Fl.b64 (n + k / T) := Fl.rnd_nonneg _ (by linarith)
  split
  · rename_i hh
    have hhalf : (1 : Rat) / 2 ≤ k / T := by
      rw [le_div_iff₀ hTpos]
      have : (T : Rat) ≤ 2 * k := by exact_mod_cast hh
      linarith
    have lo : (n : Rat) + 1 / 2 ≤ Fl.rnd Fl.b64 (n + k / T) := by
      rw [← Fl.rnd_of_fits Fl.good64.digits (Fl.fits_half Fl.good64 (n := n) (by omega))]
      exact Fl.rnd_mono _ Fl.good64.digits (by linarith)
    have hi : Fl.rnd Fl.b64 (n + k / T) ≤ ((n + 1 : Nat) : Rat) := by
      rw [← Fl.rnd_nat Fl.good64 (n := n + 1) (by omega)]
      exact Fl.rnd_mono _ Fl.good64.digits (by push_cast; linarith)
    refine roundAway_near ?_ ?_ hr0 (by omega)
    · push_cast; linarith
    · push_cast at hi ⊢; linarith
  · rename_i hh
    have hk2 : 2 * k + 1 ≤ T := by omega
    have hhalf : (k : Rat) / T ≤ 1 / 2 - 1 / 2000000 := by
      rw [div_le_iff₀ hTpos]
      have h3 : (2 * k + 1 : Rat) ≤ T := by exact_mod_cast hk2
      have h4 : (T : Rat) ≤ 1000000 := by exact_mod_cast hT
      linarith
    have hrel := Fl.rnd64_rel (n + k / T)
    rw [abs_of_nonneg (show (0 : Rat) ≤ n + k / T by linarith), abs_le] at hrel
    norm_num at hrel
    refine roundAway_near ?_ ?_ hr0 (by omega)
    · linarith [hrel.1]
    · linarith [hrel.2]

example : parseFontSize c!"12.49pt" = some 12 ∧ parseFontSize c!"1.25E1pt" = some 13 ∧ parseF64? c!"1.5" = some (.fin (3 / 2)) := by decide +kernel

/-! ### Declarations -/

theorem decl_name (d : Decl) : Tight d.name ∧ ':' ∉ d.name ∧ ';' ∉ d.name ∧ ∀ low, lowerStr low d.name = d.name := by
  cases d <;> refine ⟨?_, ?_, ?_, fun low => rfl⟩ <;> simp only [Decl.name] <;>
    first
    | decide
    | exact ⟨by decide, by decide, by decide⟩

theorem decl_value {d : Decl} (h : d.Ok) : Tight d.value ∧ ';' ∉ d.value := by
  have hd : ∀ n : Fin 256, ';' ∉ dec n.val := fun n => dec_notMem rfl
  cases d with
  | color c =>
    refine ⟨(word_tight (hexColor_word c) (by simp [hexColor])).cons_word (by decide), ?_⟩
    simp only [Decl.value, List.mem_append, not_or]
    exact ⟨by decide, fun h => absurd (hexColor_word c _ h) (by decide)⟩
  | background c =>
    refine ⟨Tight.around (a := c!"rgb(") (b := c!")") (m := dec c.1.val ++ c!", " ++ dec c.2.1.val ++ c!", " ++ dec c.2.2.val) ⟨by decide, by decide, by decide⟩
      ⟨by decide, by decide, by decide⟩ |> fun h => by simpa [Decl.value] using h, ?_⟩
    simp [Decl.value, hd]
  | size n =>
    have := Tight.around (m := []) (dec_tight n) (b := c!"pt") ⟨by decide, by decide, by decide⟩
    refine ⟨by simpa [Decl.value] using this, ?_⟩
    have : ';' ∉ dec n := dec_notMem rfl
    simp [Decl.value, this]
  | weight b => cases b <;> exact ⟨⟨by decide, by decide, by decide⟩, by decide⟩
  | slant b => cases b <;> exact ⟨⟨by decide, by decide, by decide⟩, by decide⟩
  | line u t => cases u <;> cases t <;> exact ⟨⟨by decide, by decide, by decide⟩, by decide⟩
  | font n => exact ⟨⟨h.2.1, h.2.2.1, h.1⟩, h.2.2.2.1⟩

theorem decl_text {d : Decl} (h : d.Ok) : Tight d.text ∧ ';' ∉ d.text := by
  refine ⟨Tight.around (decl_name d).1 (decl_value h).1, ?_⟩
  simp [Decl.text, (decl_name d).2.2.1, (decl_value h).2]

theorem applyDecl_text (low : Str → Str) (s : InlineStyle) {d : Decl} (h : d.Ok) (p : Str) (hp : ∀ c ∈ p, isWs c = true) :
    applyDecl low s (p ++ d.text) = some (addDecl s d) := by
  have e : declOf low (p ++ d.text) = some (d.name, d.value) := by
    unfold declOf
    rw [trim_indent hp (decl_text h).1]
    have : d.text = d.name ++ ':' :: (c!" " ++ d.value) := by simp [Decl.text]
    rw [this, splitOnce?_quote (decl_name d).2.1, Option.map_some]
    simp only [trim_tight (decl_name d).1, (decl_name d).2.2.2, trim_indent (p := c!" ") (by decide) (decl_value h).1]
  rw [applyDecl, e]
  cases d with
  | color c =>
    show (parseCssColor (c!"#" ++ hexColor lowerHex c)).map _ = _
    rw [(C142_hex c).1]; rfl
  | background c =>
    show (parseCssColor (c!"rgb(" ++ dec c.1.val ++ c!", " ++ dec c.2.1.val ++ c!", " ++ dec c.2.2.val ++ c!")")).map _ = _
    rw [(C142_rgb c [] (by simp)).1]; rfl
  | size n =>
    show some { s with fontSize := parseFontSize (dec n ++ c!"pt") } = _
    rw [C142_points h]; rfl
  | weight b => rfl
  | slant b => rfl
  | line u t => rfl
  | font n =>
    show some { s with fontFamily := some (Mermaid.trimChar '\'' (Mermaid.trimChar '"' n)) } = _
    obtain ⟨_, _, _, _, h1, h2⟩ := h
    have k : ∀ c, c ∉ n → Mermaid.trimChar c n = n := fun c hc =>
      trimChar_keep (fun e => hc (List.mem_of_mem_head? e)) (fun e => hc (List.mem_of_mem_getLast? e))
    rw [k _ h1, k _ h2]; rfl

theorem split_styleText (d : Decl) (ds : List Decl) (h : ∀ x ∈ d :: ds, x.Ok) :
    splitChar ';' (styleText (d :: ds)) = d.text :: ds.map fun x => c!" " ++ x.text := by
  induction ds generalizing d with
  | nil => exact splitChar_of_notMem (decl_text (h d (by simp))).2
  | cons e ds ih =>
    have e1 : styleText (d :: e :: ds) = d.text ++ ';' :: (' ' :: styleText (e :: ds)) := by
      simp [styleText, joinStr]
    have e2 : splitChar ';' (' ' :: styleText (e :: ds)) = (c!" " ++ e.text) :: ds.map fun x => c!" " ++ x.text := by
      rw [splitChar, ih e (fun x hx => h x (by simp [List.mem_cons.mp hx] ))]
      rfl
    rw [e1, splitChar_append_sep (decl_text (h d (by simp))).2, e2]
    rfl

theorem fold_addDecl (low : Str → Str) (ds : List Decl) (h : ∀ x ∈ ds, x.Ok) (before : List Decl) :
    (ds.map fun x => c!" " ++ x.text).foldlM (applyDecl low) (styleOf before) = some (styleOf (before ++ ds)) := by
  induction ds generalizing before with
  | nil => simp
  | cons d ds ih =>
    rw [List.map_cons, List.foldlM_cons, applyDecl_text low _ (h d (by simp)) c!" " (by decide), ← styleOf_snoc]
    refine (ih (fun x hx => h x (by simp [hx])) (before ++ [d])).trans ?_
    simp

theorem parseStyle_text (low : Str → Str) (ds : List Decl) (h : ∀ x ∈ ds, x.Ok) :
    parseStyle low (styleText ds) = some (styleOf ds) := by
  cases ds with
  | nil => rfl
  | cons d ds =>
    rw [parseStyle, split_styleText d ds h, List.foldlM_cons]
    have h1 : applyDecl low {} d.text = some (styleOf [d]) :=
      (applyDecl_text low (styleOf []) (h d (by simp)) [] (by simp)).trans (by rw [← styleOf_snoc]; rfl)
    rw [h1]
    exact fold_addDecl low ds (fun x hx => h x (by simp [hx])) [d]

/-- The style of an element inside another. -/
theorem childStyle_attrs (low : Str → Str) (outer ds : List Decl) (h : ∀ x ∈ ds, x.Ok) :
    childStyle low (styleOf outer) (styleAttrs ds) = some (styleOf (outer ++ ds)) := by
  unfold styleAttrs
  split
  · rename_i e; subst e; simp [childStyle, attrValue?]
  · have : attrValue? [(c!"style", styleText ds)] c!"style" = some (styleText ds) := rfl
    rw [childStyle, this]
    simp only [parseStyle_text low ds h, Option.map_some, styleOf_merge]

theorem calls_run (low : Str → Str) (s : InlineStyle) : (s.calls low).foldl FormatCall.run {} =
    { bold := s.fontWeight.any (weightBold low)
      italic := s.fontStyle.any (styleItalic low)
      underline := s.textDecoration.any (containsStr c!"underline")
      strikethrough := s.textDecoration.any (containsStr c!"line-through")
      color := s.color.map cleanColor
      highlight := s.backgroundColor.map cleanColor
      fontSize := s.fontSize
      fontFamily := s.fontFamily } := by
  unfold InlineStyle.calls
  rcases s with ⟨c, b, z, w, i, t, f⟩
  simp only [List.foldl_append]
  cases c <;> cases b <;> cases z <;> cases f <;> cases hw : w.any (weightBold low) <;> cases hi : i.any (styleItalic low) <;>
    cases hu : t.any (containsStr c!"underline") <;> cases ht : t.any (containsStr c!"line-through") <;> rfl

theorem toFormat_styleOf (low : Str → Str) (ds : List Decl) : (styleOf ds).toFormat low = wantedFormat ds := by
  unfold InlineStyle.toFormat wantedFormat
  rw [isEmpty_styleOf]
  by_cases h : ds = []
  · simp [h]
  · simp only [h, decide_false, Bool.false_eq_true, if_false, calls_run]
    simp only [styleOf]
    congr 2
    · rw [lastSet_map (fun o : Option Str => o.any (weightBold low))]
      congr 1; funext d; cases d <;> try rfl
      rename_i b; cases b <;> rfl
    · rw [lastSet_map (fun o : Option Str => o.any (styleItalic low))]
      congr 1; funext d; cases d <;> try rfl
      rename_i b; cases b <;> rfl
    · rw [lastSet_map (fun o : Option Str => o.any (containsStr c!"underline"))]
      congr 1; funext d; cases d <;> try rfl
      rename_i u t; cases u <;> cases t <;> rfl
    · rw [lastSet_map (fun o : Option Str => o.any (containsStr c!"line-through"))]
      congr 1; funext d; cases d <;> try rfl
      rename_i u t; cases u <;> cases t <;> rfl
    · rw [lastSet_map (fun o : Option Str => o.map cleanColor)]
      congr 1; funext d; cases d <;> try rfl
      simp [cleanColor_hexColor]
    · rw [lastSet_map (fun o : Option Str => o.map cleanColor)]
      congr 1; funext d; cases d <;> try rfl
      simp [cleanColor_hexColor]
    · congr 1; funext d; cases d <;> rfl
    · congr 1; funext d; cases d <;> rfl

/-- **C142.** A style attribute gives the format that its declarations ask for, the last declaration of each property
counting. -/
theorem C142_style (low : Str → Str) (ds : List Decl) (h : ∀ d ∈ ds, d.Ok) :
    ∃ s, parseStyle low (styleText ds) = some s ∧ s.toFormat low = wantedFormat ds :=
  ⟨_, parseStyle_text low ds h, toFormat_styleOf low ds⟩

example : styleText [.color (255, 0, 0), .weight true, .size 18] = c!"color: #ff0000; font-weight: bold; font-size: 18pt" := by
  decide +kernel

/-- What `font-weight` and `font-style` may be set to, and what is to come of it: weights from 700 are bold, oblique text is
italic. -/
def weightWords : List (Str × Bool) :=
  [(c!"bold", true), (c!"bolder", true), (c!"normal", false), (c!"lighter", false), (c!"inherit", false)] ++
    (List.range' 1 9).map fun k => (dec (100 * k), decide (700 ≤ 100 * k))

/-- The same for `font-style`. -/
def styleWords : List (Str × Bool) := [(c!"italic", true), (c!"oblique", true), (c!"normal", false)]

/-- **C142.** The words and numbers for weights and slants are understood. -/
theorem C142_words (low : Str → Str) :
    (∀ p ∈ weightWords, ∃ s, parseStyle low (c!"font-weight: " ++ p.1) = some s ∧ s.toFormat low = some { bold := p.2 }) ∧
    (∀ p ∈ styleWords, ∃ s, parseStyle low (c!"font-style: " ++ p.1) = some s ∧ s.toFormat low = some { italic := p.2 }) := by
  have e : weightWords = [(c!"bold", true), (c!"bolder", true), (c!"normal", false), (c!"lighter", false), (c!"inherit", false),
      (c!"100", false), (c!"200", false), (c!"300", false), (c!"400", false), (c!"500", false), (c!"600", false), (c!"700", true),
      (c!"800", true), (c!"900", true)] := by decide +kernel
  rw [e]
  constructor
  · intro p hp
    refine ⟨{ fontWeight := some p.1 }, ?_⟩
    simp only [List.mem_cons, List.not_mem_nil, or_false] at hp
    rcases hp with rfl | rfl | rfl | rfl | rfl | rfl | rfl | rfl | rfl | rfl | rfl | rfl | rfl | rfl <;> exact ⟨by krfl, by krfl⟩
  · intro p hp
    refine ⟨{ fontStyle := some p.1 }, ?_⟩
    simp only [styleWords, List.mem_cons, List.not_mem_nil, or_false] at hp
    rcases hp with rfl | rfl | rfl <;> exact ⟨by krfl, by krfl⟩

example : (c!"700", true) ∈ weightWords ∧ (c!"600", false) ∈ weightWords := by decide +kernel

/-- **C142.** Declarations of inner elements count more than those around them. -/
theorem C142_nested (low : Str → Str) (outer inner : List Decl) (ho : ∀ d ∈ outer, d.Ok) (hi : ∀ d ∈ inner, d.Ok) :
    ∃ s t, parseStyle low (styleText outer) = some s ∧ parseStyle low (styleText inner) = some t ∧
      (s.merge t).toFormat low = wantedFormat (outer ++ inner) :=
  ⟨_, _, parseStyle_text low outer ho, parseStyle_text low inner hi, by rw [styleOf_merge, toFormat_styleOf]⟩

end PptRs.Props
