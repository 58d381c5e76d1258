import Verif.Model.Pdf
import Verif.Spec.Pdf

/-! # Reading back the content streams of PDF files -/

namespace PptRs.Pdf

open PptRs PdfRead

theorem encode_append (a b : Str) : encode (a ++ b) = encode a ++ encode b := List.flatMap_append

theorem encode_cons (c : Char) (s : Str) : encode (c :: s) = encodeChar c ++ encode s := rfl

/-! ### Escaping -/

/-- A character as it is written in a string. -/
def escChar (c : Char) : Str := if c = '\\' ∨ c = '(' ∨ c = ')' then ['\\', c] else [c]

theorem escapePdf_eq (s : Str) : escapePdf s = s.flatMap escChar := by
  unfold escapePdf replaceChar
  rw [List.flatMap_assoc, List.flatMap_assoc]
  congr 1
  funext c
  unfold escChar
  by_cases h1 : c = '\\'
  · subst h1; rfl
  by_cases h2 : c = '('
  · subst h2; rfl
  by_cases h3 : c = ')'
  · subst h3; rfl
  simp [h1, h2, h3]

/-- A byte that is not special in strings. -/
def Inert (b : UInt8) : Prop := b ≠ 92 ∧ b ≠ 40 ∧ b ≠ 41

theorem toUInt8_ne {n k : Nat} (hn : n < 256) (hk : k < 256) (h : n ≠ k) : n.toUInt8 ≠ k.toUInt8 := by
  intro e
  have := congrArg UInt8.toNat e
  simp only [Nat.toUInt8, UInt8.toNat_ofNat'] at this
  omega

theorem inert_of_big {n : Nat} (h : 0x80 ≤ n) (h' : n < 256) : Inert n.toUInt8 :=
  ⟨toUInt8_ne (k := 92) h' (by omega) (by omega), toUInt8_ne (k := 40) h' (by omega) (by omega),
   toUInt8_ne (k := 41) h' (by omega) (by omega)⟩

theorem char_toNat_lt (c : Char) : c.toNat < 0x110000 := by
  have := c.valid
  rcases this with h | ⟨_, h⟩
  · have : c.toNat < 0xD800 := h
    omega
  · exact h

theorem inert_encodeChar {c : Char} (h : ¬ (c = '\\' ∨ c = '(' ∨ c = ')')) : ∀ b ∈ encodeChar c, Inert b := by
  have hlt := char_toNat_lt c
  have hne : ∀ d : Char, c ≠ d → c.toNat ≠ d.toNat := fun d hd e => hd (Char.toNat_inj.mp e)
  unfold encodeChar
  simp only
  split
  · rename_i hs
    intro b hb
    rw [List.mem_singleton] at hb
    subst hb
    have h1 := hne '\\' (fun e => h (.inl e))
    have h2 := hne '(' (fun e => h (.inr (.inl e)))
    have h3 := hne ')' (fun e => h (.inr (.inr e)))
    exact ⟨toUInt8_ne (k := 92) (by omega) (by omega) h1, toUInt8_ne (k := 40) (by omega) (by omega) h2,
      toUInt8_ne (k := 41) (by omega) (by omega) h3⟩
  · split
    · intro b hb
      simp only [List.mem_cons, List.not_mem_nil, or_false] at hb
      rcases hb with rfl | rfl <;> exact inert_of_big (by omega) (by omega)
    · split
      · intro b hb
        simp only [List.mem_cons, List.not_mem_nil, or_false] at hb
        rcases hb with rfl | rfl | rfl <;> exact inert_of_big (by omega) (by omega)
      · intro b hb
        simp only [List.mem_cons, List.not_mem_nil, or_false] at hb
        rcases hb with rfl | rfl | rfl | rfl <;> exact inert_of_big (by omega) (by omega)

/-! ### Strings -/

/-- Whether the last byte read was a carriage return. -/
def endCr : Bool → Bytes → Bool
  | cr, [] => cr
  | cr, b :: r => if cr && b = 10 then endCr false r else endCr (b = 13) r

theorem normalEol_append (cr : Bool) (a b : Bytes) :
    normalEol cr (a ++ b) = normalEol cr a ++ normalEol (endCr cr a) b := by
  induction a generalizing cr with
  | nil => rfl
  | cons x a ih =>
    simp only [List.cons_append, normalEol, endCr]
    split
    · exact ih _
    · split
      · rename_i h; simp [ih, h]
      · rename_i h; simp [ih, h]

theorem endCr_append (cr : Bool) (a b : Bytes) : endCr cr (a ++ b) = endCr (endCr cr a) b := by
  induction a generalizing cr with
  | nil => rfl
  | cons x a ih =>
    simp only [List.cons_append, endCr]
    split <;> exact ih _

theorem lex_inert (w : Bytes) (h : ∀ b ∈ w, Inert b) (d : Nat) (acc : Bytes) (cr : Bool) (r : Bytes) :
    lex (.str d acc cr) (w ++ r) = lex (.str d (acc ++ normalEol cr w) (endCr cr w)) r := by
  induction w generalizing acc cr with
  | nil => simp [normalEol, endCr]
  | cons b w ih =>
    obtain ⟨h1, h2, h3⟩ := h b (by simp)
    have ih := ih (fun x hx => h x (by simp [hx]))
    simp only [List.cons_append, lex, strStep, normalEol, endCr, h1, h2, h3, if_false]
    by_cases hcr : (cr && decide (b = 10)) = true
    · simp only [hcr, if_true]; exact ih _ _
    · simp only [hcr, if_false, Bool.false_eq_true]
      by_cases hb : b = 13
      · simp only [hb, if_true, decide_true]; rw [ih]; simp
      · simp only [hb, if_false, decide_false]; rw [ih]; simp

theorem lex_escaped (c : Char) (hc : c = '\\' ∨ c = '(' ∨ c = ')') (d : Nat) (acc : Bytes) (cr : Bool) (r : Bytes) :
    lex (.str d acc cr) (encode ['\\', c] ++ r) = lex (.str d (acc ++ normalEol cr (encodeChar c)) (endCr cr (encodeChar c))) r := by
  rcases hc with rfl | rfl | rfl <;> cases cr <;> rfl

theorem lex_string (t : Str) (d : Nat) (acc : Bytes) (cr : Bool) (r : Bytes) :
    lex (.str d acc cr) (encode (escapePdf t) ++ r)
      = lex (.str d (acc ++ normalEol cr (encode t)) (endCr cr (encode t))) r := by
  rw [escapePdf_eq]
  induction t generalizing acc cr with
  | nil => simp [encode, normalEol, endCr]
  | cons c t ih =>
    rw [List.flatMap_cons, encode_append, List.append_assoc, encode_cons, normalEol_append, endCr_append]
    by_cases hc : c = '\\' ∨ c = '(' ∨ c = ')'
    · have e : escChar c = ['\\', c] := if_pos hc
      rw [e, lex_escaped c hc, ih, List.append_assoc]
    · have e : escChar c = [c] := if_neg hc
      have : encode [c] = encodeChar c := by simp [encode]
      rw [e, this, lex_inert _ (inert_encodeChar hc), ih, List.append_assoc]

/-! ### Tokens -/

/-- A text is read as tokens, whatever follows. -/
def LexesTo (s : Str) (ts : List Tok) : Prop := ∀ r, lex .idle (encode s ++ r) = (lex .idle r).map (ts ++ ·)

theorem LexesTo.append {a b : Str} {ta tb : List Tok} (ha : LexesTo a ta) (hb : LexesTo b tb) :
    LexesTo (a ++ b) (ta ++ tb) := by
  intro r
  rw [encode_append, List.append_assoc, ha, hb]
  cases lex .idle r <;> simp

theorem lexesTo_nil : LexesTo [] [] := by
  intro r
  simp [encode]

/-- A character that stays in a word. -/
def Regular (c : Char) : Prop := ∀ b ∈ encodeChar c, isSpace b = false ∧ isDelim b = false

theorem lex_word (w acc : Bytes) (h : ∀ b ∈ w, isSpace b = false ∧ isDelim b = false) (r : Bytes) :
    lex (.word acc) (w ++ r) = lex (.word (acc ++ w)) r := by
  induction w generalizing acc with
  | nil => simp
  | cons b w ih =>
    obtain ⟨h1, h2⟩ := h b (by simp)
    simp only [List.cons_append, lex, h1, h2, Bool.or_self, Bool.false_eq_true, if_false]
    rw [ih _ (fun x hx => h x (by simp [hx]))]
    simp

theorem regular_encode {s : Str} (h : ∀ c ∈ s, Regular c) : ∀ b ∈ encode s, isSpace b = false ∧ isDelim b = false := by
  intro b hb
  obtain ⟨c, hc, hb⟩ := List.mem_flatMap.mp hb
  exact h c hc b hb

/-- A blank or a line feed. -/
def Blank (c : Char) : Prop := c = ' ' ∨ c = '\n'

theorem lex_blank {c : Char} (h : Blank c) (acc : Bytes) (r : Bytes) :
    lex (.word acc) (encode [c] ++ r) = (lex .idle r).map (tokOf acc :: ·) := by
  rcases h with rfl | rfl <;> rfl

/-- A word and what separates it from the next one. -/
theorem lexesTo_word {w : Str} {c : Char} (hw : w ≠ []) (h : ∀ x ∈ w, Regular x) (hc : Blank c) :
    LexesTo (w ++ [c]) [tokOf (encode w)] := by
  intro r
  have hr := regular_encode h
  obtain ⟨x, w', rfl⟩ := List.exists_cons_of_ne_nil hw
  rw [encode_append, List.append_assoc]
  have hne : encode (x :: w') ≠ [] := by
    rw [encode_cons]
    unfold encodeChar
    simp only
    split
    · simp
    · split
      · simp
      · split <;> simp
  obtain ⟨b, e, he⟩ := List.exists_cons_of_ne_nil hne
  rw [he] at hr ⊢
  obtain ⟨h1, h2⟩ := hr b (by simp)
  have hb : startMode b = some (.word [b]) := by
    unfold startMode
    simp only [h1, Bool.false_eq_true, if_false]
    simp only [isDelim, Bool.or_eq_false_iff, decide_eq_false_iff_not] at h2
    simp only [isDelim, h2, if_false, decide_false, Bool.or_self, Bool.false_eq_true]
  simp only [List.cons_append, lex, hb, Option.bind_some]
  rw [lex_word _ _ (fun x hx => hr x (by simp [hx])), lex_blank hc]
  rfl

/-- A name and a blank. -/
theorem lexesTo_name {w : Str} (h : ∀ x ∈ w, Regular x) : LexesTo (c!"/" ++ w ++ c!" ") [.name (encode w)] := by
  intro r
  rw [encode_append, encode_append, List.append_assoc, List.append_assoc]
  have : encode c!"/" = [47] := rfl
  rw [this]
  simp only [List.cons_append, List.nil_append]
  have hs : lex .idle (47 :: (encode w ++ (encode c!" " ++ r))) = lex (.word [47]) (encode w ++ (encode c!" " ++ r)) := rfl
  rw [hs, lex_word _ _ (regular_encode h), lex_blank (.inl rfl)]
  rfl

/-- A string. -/
theorem lexesTo_string (t : Str) : LexesTo (c!"(" ++ escapePdf t ++ c!")") [.str (normalEol false (encode t))] := by
  intro r
  rw [encode_append, encode_append, List.append_assoc, List.append_assoc]
  have h1 : encode c!"(" = [40] := rfl
  have h2 : encode c!")" = [41] := rfl
  rw [h1, h2]
  have hs : lex .idle ([40] ++ (encode (escapePdf t) ++ ([41] ++ r))) = lex (.str 0 [] false) (encode (escapePdf t) ++ ([41] ++ r)) := rfl
  rw [hs, lex_string]
  have he : ∀ (acc : Bytes) (cr : Bool), lex (.str 0 acc cr) ([41] ++ r) = (lex .idle r).map (.str acc :: ·) := by
    intro acc cr
    cases cr <;> rfl
  rw [he]
  rfl

/-- Blanks alone are no token. -/
theorem lexesTo_blank : LexesTo c!" " [] := by
  intro r
  have : lex .idle (encode c!" " ++ r) = lex .idle r := rfl
  rw [this]
  simp

/-- A text that is printed for a number. -/
def NumText (s : Str) : Prop := s ≠ [] ∧ ∀ c ∈ s, (48 ≤ c.toNat ∧ c.toNat ≤ 57) ∨ c = '-' ∨ c = '.'

theorem numChar_cases {c : Char} (h : (48 ≤ c.toNat ∧ c.toNat ≤ 57) ∨ c = '-' ∨ c = '.') :
    ∃ b, encodeChar c = [b] ∧ isSpace b = false ∧ isDelim b = false ∧ isNumeric b = true ∧ b ≠ 47 := by
  rcases h with ⟨h1, h2⟩ | rfl | rfl
  · refine ⟨c.toNat.toUInt8, ?_, ?_⟩
    · unfold encodeChar; simp only; rw [if_pos (by omega)]
    · have : ∃ n, c.toNat = n ∧ 48 ≤ n ∧ n ≤ 57 := ⟨_, rfl, h1, h2⟩
      obtain ⟨n, e, h1, h2⟩ := this
      rw [e]
      have key : ∀ k : Fin 10, isSpace (48 + k.val).toUInt8 = false ∧ isDelim (48 + k.val).toUInt8 = false ∧
          isNumeric (48 + k.val).toUInt8 = true ∧ (48 + k.val).toUInt8 ≠ 47 := by decide
      have := key ⟨n - 48, by omega⟩
      simpa [show 48 + (n - 48) = n by omega] using this
  · exact ⟨45, rfl, by decide⟩
  · exact ⟨46, rfl, by decide⟩

theorem NumText.regular {s : Str} (h : NumText s) : ∀ c ∈ s, Regular c := by
  intro c hc b hb
  obtain ⟨x, e, h1, h2, _⟩ := numChar_cases (h.2 c hc)
  rw [e, List.mem_singleton] at hb
  subst hb
  exact ⟨h1, h2⟩

theorem NumText.tok {s : Str} (h : NumText s) : tokOf (encode s) = .num (encode s) := by
  have hall : ∀ b ∈ encode s, isNumeric b = true ∧ b ≠ 47 := by
    intro b hb
    obtain ⟨c, hc, hb⟩ := List.mem_flatMap.mp hb
    obtain ⟨x, e, _, _, h3, h4⟩ := numChar_cases (h.2 c hc)
    rw [e, List.mem_singleton] at hb
    subst hb
    exact ⟨h3, h4⟩
  generalize encode s = l at hall ⊢
  unfold tokOf
  split
  · exact absurd rfl (hall 47 (by simp)).2
  · rw [if_pos]
    exact List.all_eq_true.mpr fun b hb => (hall b hb).1

theorem lexesTo_num {s : Str} (h : NumText s) : LexesTo (s ++ c!" ") [.num (encode s)] := by
  rw [← h.tok]
  exact lexesTo_word h.1 h.regular (.inl rfl)

/-! ### Operators -/

/-- Tokens that are operands. -/
def isOperand : Tok → Bool
  | .op _ => false
  | _ => true

/-- Tokens are read as operators, whatever follows. -/
def GroupsTo (ts : List Tok) (os : List (List Tok × Bytes)) : Prop :=
  ∀ r, group [] (ts ++ r) = (group [] r).map (os ++ ·)

theorem GroupsTo.append {a b : List Tok} {oa ob : List (List Tok × Bytes)} (ha : GroupsTo a oa) (hb : GroupsTo b ob) :
    GroupsTo (a ++ b) (oa ++ ob) := by
  intro r
  rw [List.append_assoc, ha, hb]
  cases group [] r <;> simp

theorem group_operands (xs p : List Tok) (h : xs.all isOperand) (r : List Tok) : group p (xs ++ r) = group (p ++ xs) r := by
  induction xs generalizing p with
  | nil => simp
  | cons x xs ih =>
    simp only [List.all_cons, Bool.and_eq_true] at h
    have := ih (p ++ [x]) h.2
    cases x with
    | op s => exact absurd h.1 (by simp [isOperand])
    | num s => simp only [List.cons_append, group]; rw [this]; simp
    | name s => simp only [List.cons_append, group]; rw [this]; simp
    | str s => simp only [List.cons_append, group]; rw [this]; simp

theorem groupsTo_op (xs : List Tok) (o : Bytes) (h : xs.all isOperand) : GroupsTo (xs ++ [.op o]) [(xs, o)] := by
  intro r
  rw [List.append_assoc, group_operands xs [] h]
  rfl

/-- A text is read as operators, whatever follows. -/
def Ops (s : Str) (os : List (List Tok × Bytes)) : Prop := ∃ ts, LexesTo s ts ∧ GroupsTo ts os

theorem Ops.append {a b : Str} {oa ob : List (List Tok × Bytes)} (ha : Ops a oa) (hb : Ops b ob) : Ops (a ++ b) (oa ++ ob) := by
  obtain ⟨ta, h1, h2⟩ := ha
  obtain ⟨tb, h3, h4⟩ := hb
  exact ⟨_, h1.append h3, h2.append h4⟩

theorem ops_nil : Ops [] [] := ⟨[], lexesTo_nil, fun r => by simp⟩

/-- Letters. -/
def isLetter (c : Char) : Bool := (65 ≤ c.toNat && c.toNat ≤ 90) || (97 ≤ c.toNat && c.toNat ≤ 122)

theorem regular_letter {c : Char} (h : isLetter c = true) : Regular c := by
  intro b hb
  simp only [isLetter, Bool.or_eq_true, Bool.and_eq_true, decide_eq_true_eq] at h
  unfold encodeChar at hb
  simp only at hb
  rw [if_pos (by omega), List.mem_singleton] at hb
  subst hb
  have key : ∀ k : Fin 128, ((65 ≤ k.val ∧ k.val ≤ 90) ∨ (97 ≤ k.val ∧ k.val ≤ 122)) →
      isSpace k.val.toUInt8 = false ∧ isDelim k.val.toUInt8 = false := by decide
  exact key ⟨c.toNat, by omega⟩ h

/-- An operator at the end of a line with its operands. -/
theorem ops_line {a w : Str} {xs : List Tok} (ha : LexesTo a xs) (hx : xs.all isOperand) (hne : w ≠ [])
    (hw : w.all isLetter) (ht : tokOf (encode w) = .op (encode w)) : Ops (a ++ (w ++ c!"\n")) [(xs, encode w)] := by
  have h := lexesTo_word (c := '\n') hne (fun x hx => regular_letter (List.all_eq_true.mp hw x hx)) (.inr rfl)
  rw [ht] at h
  exact ⟨_, ha.append h, groupsTo_op xs _ hx⟩

/-- A colour whose channels are numbers. -/
def NumRgb (c : Rgb) : Prop := NumText c.1 ∧ NumText c.2.1 ∧ NumText c.2.2

/-- The colour as it is read. -/
def rgbBytes (c : Rgb) : List Bytes := [encode c.1, encode c.2.1, encode c.2.2]

/-- Numbers are printed as numbers. -/
structure Printer.Ok (P : Printer) : Prop where
  plain : ∀ n, NumText (P.plain n)
  one : ∀ n, NumText (P.one n)
  chan : ∀ n, NumText (P.chan n)

theorem ops_setColor {c : Rgb} (h : NumRgb c) :
    Ops (setColor c) [([.num (encode c.1), .num (encode c.2.1), .num (encode c.2.2)], [114, 103])] := by
  have := ops_line (w := c!"rg") (((lexesTo_num h.1).append (lexesTo_num h.2.1)).append (lexesTo_num h.2.2)) rfl
    (by decide) (by decide) rfl
  have e : (c.1 ++ c!" " ++ (c.2.1 ++ c!" ") ++ (c.2.2 ++ c!" ")) ++ (c!"rg" ++ c!"\n") = setColor c := by
    simp [setColor]
  rw [e] at this
  exact this

theorem ops_setFont {P : Printer} (hP : P.Ok) {name : Str} (hn : ∀ x ∈ name, Regular x) (size : Int) :
    Ops (setFont P name size) [([.name (encode name), .num (encode (P.plain size))], [84, 102])] := by
  have := ops_line (w := c!"Tf") ((lexesTo_name hn).append (lexesTo_num (hP.plain size))) rfl (by decide) (by decide) rfl
  have e : (c!"/" ++ name ++ c!" " ++ (P.plain size ++ c!" ")) ++ (c!"Tf" ++ c!"\n") = setFont P name size := by
    simp [setFont]
  rw [e] at this
  exact this

/-- The box that is filled. -/
def boxSides (P : Printer) (x y w h : Int) : List Bytes :=
  [encode (P.one x), encode (P.one y), encode (P.one w), encode (P.one h)]

theorem ops_drawRect {P : Printer} (hP : P.Ok) (x y w h : Int) :
    Ops (drawRect P x y w h) [([.num (encode (P.one x)), .num (encode (P.one y)), .num (encode (P.one w)), .num (encode (P.one h))],
      [114, 101]), ([], [102])] := by
  have h1 := ops_line (w := c!"re") ((((lexesTo_num (hP.one x)).append (lexesTo_num (hP.one y))).append (lexesTo_num (hP.one w))).append
    (lexesTo_num (hP.one h))) rfl (by decide) (by decide) rfl
  have h2 := ops_line (w := c!"f") lexesTo_nil rfl (by decide) (by decide) rfl
  have h3 := h1.append h2
  have e : ((P.one x ++ c!" " ++ (P.one y ++ c!" ") ++ (P.one w ++ c!" ") ++ (P.one h ++ c!" ")) ++ (c!"re" ++ c!"\n"))
      ++ ([] ++ (c!"f" ++ c!"\n")) = drawRect P x y w h := by simp [drawRect]
  rw [e] at h3
  exact h3

theorem ops_drawTextLine {P : Printer} (hP : P.Ok) (text : Str) (x y : Int) {font : Str} (hf : ∀ c ∈ font, Regular c) (size : Int)
    {c : Rgb} (hc : NumRgb c) :
    Ops (drawTextLine P text x y font size c) [
      ([.num (encode c.1), .num (encode c.2.1), .num (encode c.2.2)], [114, 103]),
      ([.name (encode font), .num (encode (P.plain size))], [84, 102]),
      ([], [66, 84]),
      ([.num (encode (P.plain x)), .num (encode (P.one y))], [84, 100]),
      ([.str (normalEol false (encode text))], [84, 106]),
      ([], [69, 84])] := by
  have h1 := (ops_setColor hc).append (ops_setFont hP hf size)
  have h2 := ops_line (w := c!"BT") lexesTo_nil rfl (by decide) (by decide) rfl
  have h3 := ops_line (w := c!"Td") ((lexesTo_num (hP.plain x)).append (lexesTo_num (hP.one y))) rfl (by decide) (by decide) rfl
  have h4 := ops_line (w := c!"Tj") ((lexesTo_string text).append lexesTo_blank) rfl (by decide) (by decide) rfl
  have h5 := ops_line (w := c!"ET") lexesTo_nil rfl (by decide) (by decide) rfl
  have h := (((h1.append h2).append h3).append h4).append h5
  have e : (((setColor c ++ setFont P font size) ++ ([] ++ (c!"BT" ++ c!"\n")))
      ++ ((P.plain x ++ c!" " ++ (P.one y ++ c!" ")) ++ (c!"Td" ++ c!"\n"))
      ++ ((c!"(" ++ escapePdf text ++ c!")" ++ c!" ") ++ (c!"Tj" ++ c!"\n"))) ++ ([] ++ (c!"ET" ++ c!"\n"))
      = drawTextLine P text x y font size c := by simp [drawTextLine]
  rw [e] at h
  exact h

/-! ### Marks -/

/-- A text paints marks, whatever the graphics state and whatever follows. -/
def Draws (s : Str) (ms : List Mark) : Prop :=
  ∃ os, Ops s os ∧ ∀ g, ∃ g', ∀ r, marksFrom g (os ++ r) = ms ++ marksFrom g' r

theorem Draws.append {a b : Str} {ma mb : List Mark} (ha : Draws a ma) (hb : Draws b mb) : Draws (a ++ b) (ma ++ mb) := by
  obtain ⟨oa, h1, h2⟩ := ha
  obtain ⟨ob, h3, h4⟩ := hb
  refine ⟨_, h1.append h3, fun g => ?_⟩
  obtain ⟨g1, e1⟩ := h2 g
  obtain ⟨g2, e2⟩ := h4 g1
  exact ⟨g2, fun r => by rw [List.append_assoc, e1, e2, List.append_assoc]⟩

theorem draws_nil : Draws [] [] := ⟨[], ops_nil, fun g => ⟨g, fun _ => rfl⟩⟩

theorem Draws.read {s : Str} {ms : List Mark} (h : Draws s ms) : readMarks (encode s) = some ms := by
  obtain ⟨os, ⟨ts, h1, h2⟩, h3⟩ := h
  have e1 := h1 []
  have e2 := h2 []
  simp only [List.append_nil] at e1 e2
  obtain ⟨g', e3⟩ := h3 {}
  have e3 := e3 []
  unfold readMarks readStream
  rw [e1]
  simp only [lex, Option.map_some, List.append_nil, Option.bind_some]
  rw [e2]
  simp only [group, if_true, Option.map_some, List.append_nil] at e3 ⊢
  rw [e3]
  simp [marksFrom]

/-- A line of text as it is read. -/
def textMark (P : Printer) (text : Str) (x y : Int) (font : Str) (size : Int) (c : Rgb) : Mark :=
  .text (rgbBytes c) (encode font) (encode (P.plain size)) (encode (P.plain x)) (encode (P.one y)) (normalEol false (encode text))

theorem draws_textLine {P : Printer} (hP : P.Ok) (text : Str) (x y : Int) {font : Str} (hf : ∀ c ∈ font, Regular c) (size : Int)
    {c : Rgb} (hc : NumRgb c) : Draws (drawTextLine P text x y font size c) [textMark P text x y font size c] :=
  ⟨_, ops_drawTextLine hP text x y hf size hc, fun _ => ⟨_, fun _ => rfl⟩⟩

theorem draws_box {P : Printer} (hP : P.Ok) {c : Rgb} (hc : NumRgb c) (x y w h : Int) :
    Draws (setColor c ++ drawRect P x y w h) [.box (rgbBytes c) (boxSides P x y w h)] :=
  ⟨_, (ops_setColor hc).append (ops_drawRect hP x y w h), fun _ => ⟨_, fun _ => rfl⟩⟩

end PptRs.Pdf
