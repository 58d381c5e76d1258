import Verif.Model.SizeReport
import Verif.Lemmas.Float
import Verif.Lemmas.Str
import Verif.Props.Chains

/-!
# The report of a compression (C150)
-/

namespace PptRs.Props

open PptRs PptRs.Fl PptRs.SizeReport PptRs.Spec

/-! ### The percentage -/

theorem rnd64_nat {n : Nat} (h : n ≤ 2 ^ 53) : mk b64 n = .fin n := mk_nat good64 h

theorem mk64_hundred : mk b64 100 = .fin 100 := by
  have := rnd64_nat (n := 100) (by norm_num)
  exact_mod_cast this

theorem rnd64_one : rnd b64 1 = 1 := by
  have := rnd_nat good64 (n := 1) (by decide)
  exact_mod_cast this

theorem rnd64_hundred : rnd b64 100 = 100 := by
  have := rnd_nat good64 (n := 100) (by decide)
  exact_mod_cast this

/-- A ratio between 0 and 1 as a percentage. -/
theorem percent_close {x : Rat} (h0 : 0 ≤ x) (h1 : x ≤ 1) :
    ∃ r, mul b64 (mk b64 x) (mk b64 100) = .fin r ∧ 0 ≤ r ∧ r ≤ 100 ∧ |r - 100 * x| ≤ 1 / 2 ^ 40 := by
  have hx : mk b64 x = .fin (rnd b64 x) := mk_of_small good64 h0 (le_trans h1 (by norm_num [b64]))
  have hr0 : 0 ≤ rnd b64 x := rnd_nonneg b64 h0
  have hr1 : rnd b64 x ≤ 1 := by
    have := rnd_mono b64 (by decide) h1
    rwa [rnd64_one] at this
  have hy0 : 0 ≤ rnd b64 x * 100 := by positivity
  have hy1 : rnd b64 x * 100 ≤ 100 := by linarith
  refine ⟨rnd b64 (rnd b64 x * 100), ?_, rnd_nonneg b64 hy0, ?_, ?_⟩
  · rw [hx, mk64_hundred]
    exact mk_of_small good64 hy0 (le_trans hy1 (by norm_num [b64]))
  · have := rnd_mono b64 (by decide) hy1
    rwa [rnd64_hundred] at this
  · have e1 := rnd64_rel x
    have e2 := rnd64_rel (rnd b64 x * 100)
    rw [abs_of_nonneg h0] at e1
    rw [abs_of_nonneg hy0] at e2
    have b1 : x / 2 ^ 53 ≤ 1 / 2 ^ 53 := by gcongr
    have b2 : rnd b64 x * 100 / 2 ^ 53 ≤ 100 / 2 ^ 53 := by gcongr
    have n1 : (1 : Rat) / 2 ^ 53 + 1 / 2 ^ 100 ≤ 1 / 2 ^ 52 := by norm_num
    have n2 : (100 : Rat) / 2 ^ 53 + 1 / 2 ^ 100 ≤ 1 / 2 ^ 46 := by norm_num
    have n3 : (100 : Rat) * (1 / 2 ^ 52) + 1 / 2 ^ 46 ≤ 1 / 2 ^ 40 := by norm_num
    rw [abs_le] at e1 e2 ⊢
    constructor <;> linarith

/-- **C150.** If the file became smaller, the reported percentage lies between 0 and 100 and differs from the exact one by no more than
`1 / 2 ^ 40`, however the crate is built. -/
theorem C150_reduction_partial (build : Build) (original compressed : Nat) (h0 : 0 < original) (h1 : compressed ≤ original)
    (h2 : original ≤ 2 ^ 53) : ∃ r, reduction build original compressed = some (.fin r) ∧ 0 ≤ r ∧ r ≤ 100 ∧
      |r - 100 * (((original - compressed : Nat) : Rat) / original)| ≤ 1 / 2 ^ 40 := by
  have hpos : (0 : Rat) < original := by exact_mod_cast h0
  have hx0 : 0 ≤ ((original - compressed : Nat) : Rat) / original := by positivity
  have hx1 : ((original - compressed : Nat) : Rat) / original ≤ 1 := by
    rw [div_le_one hpos]
    exact_mod_cast Nat.sub_le original compressed
  obtain ⟨r, e, p1, p2, p3⟩ := percent_close hx0 hx1
  refine ⟨r, ?_, p1, p2, p3⟩
  unfold reduction usizeSub
  rw [if_pos h0, if_pos h1, rnd64_nat h2, Option.map_some, rnd64_nat (show original - compressed ≤ 2 ^ 53 by omega)]
  simp only [Fl.div]
  rw [if_neg hpos.ne', e]

/-- The result of an operation is not smaller than a number of the format below the exact value. -/
theorem mk64_ge {q : Rat} {n : Nat} (hn : n ≤ 2 ^ 53) (h : (n : Rat) ≤ q) :
    mk b64 q = .inf false ∨ ∃ r, mk b64 q = .fin r ∧ (n : Rat) ≤ r := by
  have h0 : 0 ≤ q := le_trans (by positivity) h
  unfold mk
  split
  · left
    rw [decide_eq_false (not_lt.mpr h0)]
  · right
    refine ⟨_, rfl, ?_⟩
    have := rnd_mono b64 (by decide) h
    rwa [rnd_nat good64 hn] at this

/-- **C150 does not hold in full.** If a file grows by the compression, a debug build crashes after having written it, and a release
build reports that it became smaller by more than a hundred thousand percent. -/
theorem C150_grown_violated (original compressed : Nat) (h0 : 0 < original) (h1 : original < compressed) (h2 : compressed ≤ 2 ^ 53) :
    reduction .debug original compressed = none ∧
    ∃ v, reduction .release original compressed = some v ∧ Fl.lt (.fin 100000) v = true := by
  have hnot : ¬ compressed ≤ original := by omega
  refine ⟨by unfold reduction usizeSub; rw [if_pos h0, if_neg hnot]; rfl, ?_⟩
  unfold reduction usizeSub
  rw [if_pos h0, if_neg hnot, rnd64_nat (show original ≤ 2 ^ 53 by omega)]
  refine ⟨mul b64 (div b64 (mk b64 ((original + 18446744073709551616 - compressed : Nat) : Rat)) (.fin original)) (mk b64 100), rfl, ?_⟩
  have hpos : (0 : Rat) < original := by exact_mod_cast h0
  have hs : ((2 ^ 53 : Nat) : Rat) * 1024 ≤ ((original + 18446744073709551616 - compressed : Nat) : Rat) := by
    have : 2 ^ 53 * 1024 ≤ original + 18446744073709551616 - compressed := by omega
    exact_mod_cast this
  have hrs : rnd b64 (((2 ^ 53 : Nat) : Rat) * 1024) = ((2 ^ 53 : Nat) : Rat) * 1024 :=
    rnd_of_fits (by decide) ⟨2 ^ 53, 10, by norm_num, by norm_num [b64], by decide⟩
  have hq : ∀ r : Rat, ((2 ^ 53 : Nat) : Rat) * 1024 ≤ r → (1024 : Rat) ≤ r / original := by
    intro r hr
    rw [le_div_iff₀ hpos]
    have : (original : Rat) ≤ ((2 ^ 53 : Nat) : Rat) := by exact_mod_cast (show original ≤ 2 ^ 53 by omega)
    linarith
  have last : ∀ r : Rat, (1024 : Rat) ≤ r → Fl.lt (.fin 100000) (mul b64 (.fin r) (mk b64 100)) = true := by
    intro r hr
    rw [mk64_hundred]
    simp only [Fl.mul]
    rcases mk64_ge (q := r * 100) (n := 102400) (by norm_num) (by push_cast; linarith) with e | ⟨s, e, hs⟩
    · rw [e]; rfl
    · rw [e]
      simp only [Fl.lt, decide_eq_true_eq]
      push_cast at hs
      linarith
  have lastInf : Fl.lt (.fin 100000) (mul b64 (.inf false) (mk b64 100)) = true := by
    rw [mk64_hundred]
    simp [Fl.mul, Fl.lt]
  have hsv : mk b64 ((original + 18446744073709551616 - compressed : Nat) : Rat) = .inf false ∨
      ∃ r, mk b64 ((original + 18446744073709551616 - compressed : Nat) : Rat) = .fin r ∧ ((2 ^ 53 : Nat) : Rat) * 1024 ≤ r := by
    have hs0 : (0 : Rat) ≤ ((original + 18446744073709551616 - compressed : Nat) : Rat) := by positivity
    unfold mk
    split
    · left
      rw [decide_eq_false (not_lt.mpr hs0)]
    · right
      refine ⟨_, rfl, ?_⟩
      have := rnd_mono b64 (by decide) hs
      rwa [hrs] at this
  rcases hsv with e | ⟨r, e, hr⟩
  · rw [e]
    simp only [Fl.div]
    rw [decide_eq_false (not_lt.mpr hpos.le)]
    exact lastInf
  · rw [e]
    simp only [Fl.div]
    rw [if_neg hpos.ne']
    rcases mk64_ge (q := r / original) (n := 1024) (by norm_num) (by push_cast; exact hq r hr) with e | ⟨s, e, hs⟩
    · rw [e]; exact lastInf
    · rw [e]
      exact last s (by exact_mod_cast hs)

/-- **C150.** The report names the sizes of the two files and the number of media files removed; the target is reached if there is none
or the file is not larger than it. -/
theorem C150_report (build : Build) (o : Options) (p : Package) (original compressed : Nat) (r : Result)
    (h : (compress build o p original compressed).2 = some r) :
    r.originalSize = original ∧ r.compressedSize = compressed ∧ reduction build original compressed = some r.reductionPercent ∧
    r.unusedMediaRemoved = (compressPackage o.flags p).2 ∧ (r.targetAchieved = true ↔ o.targetSize = 0 ∨ compressed ≤ o.targetSize) := by
  unfold compress at h
  simp only [Option.map_eq_some_iff] at h
  obtain ⟨v, hv, rfl⟩ := h
  exact ⟨rfl, rfl, hv, rfl, by simp⟩

/-- **C150 does not hold in full.** The level of compression and the target size change nothing in the file, and no image is ever
compressed. -/
theorem C150_level_violated (build : Build) (o : Options) (level : Level) (target : Nat) (p : Package) (original compressed : Nat) :
    (compress build { o with level := level, targetSize := target } p original compressed).1 =
      (compress build o p original compressed).1 ∧
    ∀ r, (compress build o p original compressed).2 = some r → r.imagesCompressed = 0 := by
  refine ⟨rfl, ?_⟩
  intro r h
  unfold compress at h
  simp only [Option.map_eq_some_iff] at h
  obtain ⟨v, hv, rfl⟩ := h
  rfl

/-! ### Options -/

/-- **C150.** After a chain of settings every option has the value that was set last. -/
theorem C150_options (o : Options) (l : List Call) :
    (o.run l).level = lastSet (fun | .level x => some x | _ => none) o.level l ∧
    (o.run l).flags.removeUnusedMedia = lastSet (fun | .unusedMedia b => some b | _ => none) o.flags.removeUnusedMedia l ∧
    (o.run l).flags.removeProperties = lastSet (fun | .properties b => some b | _ => none) o.flags.removeProperties l ∧
    (o.run l).flags.removeNotes = lastSet (fun | .notes b => some b | _ => none) o.flags.removeNotes l ∧
    (o.run l).flags.removeComments = lastSet (fun | .comments b => some b | _ => none) o.flags.removeComments l ∧
    (o.run l).flags.optimizeXml = lastSet (fun | .xml b => some b | _ => none) o.flags.optimizeXml l ∧
    (o.run l).targetSize = lastSet (fun | .target n => some n | _ => none) o.targetSize l := by
  unfold Options.run
  refine ⟨?_, ?_, ?_, ?_, ?_, ?_, ?_⟩
  · exact chain_last Options.call (·.level) _ (fun s o => by cases o <;> rfl) l o
  · exact chain_last Options.call (·.flags.removeUnusedMedia) _ (fun s o => by cases o <;> rfl) l o
  · exact chain_last Options.call (·.flags.removeProperties) _ (fun s o => by cases o <;> rfl) l o
  · exact chain_last Options.call (·.flags.removeNotes) _ (fun s o => by cases o <;> rfl) l o
  · exact chain_last Options.call (·.flags.removeComments) _ (fun s o => by cases o <;> rfl) l o
  · exact chain_last Options.call (·.flags.optimizeXml) _ (fun s o => by cases o <;> rfl) l o
  · exact chain_last Options.call (·.targetSize) _ (fun s o => by cases o <;> rfl) l o

/-- **C150.** Stronger levels keep less of a picture: from light over medium to aggressive the quality and the greatest size fall. -/
theorem C150_levels :
    Level.aggressive.imageQuality < Level.medium.imageQuality ∧ Level.medium.imageQuality < Level.light.imageQuality ∧
    Level.light.imageQuality ≤ 100 ∧ Level.aggressive.maxDimension < Level.medium.maxDimension ∧
    Level.medium.maxDimension < Level.light.maxDimension ∧ Level.aggressive.resizes = true ∧ Level.light.resizes = false := by decide

/-- **C150 does not hold in full.** A quality of more than 100 is accepted. -/
theorem C150_quality_violated : (Level.custom 255).imageQuality = 255 := rfl

/-- **C150.** The ready-made options: the default keeps notes and properties, that for the web keeps notes and aims at five
megabytes, the strongest removes all it can. -/
theorem C150_presets :
    Options.new.flags.removeNotes = false ∧ Options.new.flags.removeProperties = false ∧ Options.new.targetSize = 0 ∧
    Options.web.flags.removeNotes = false ∧ Options.web.flags.removeProperties = true ∧ Options.web.targetSize = 5 * 1024 * 1024 ∧
    Options.maximum.flags = CompressionOptions.maximum ∧ Options.maximum.level = .aggressive := by decide

/-! ### Sizes as text -/

/-- The number that a text with a point shows. -/
def Spec.shown (s : Str) : Option Rat :=
  match splitOnce? c!"." s with
  | some (a, b) => some (Nat.ofDigitChars 10 a 0 + Nat.ofDigitChars 10 b 0 / 10 ^ b.length)
  | none => none

theorem splitOnce_dot {a b : Str} (h : '.' ∉ a) : splitOnce? c!"." (a ++ '.' :: b) = some (a, b) := by
  induction a with
  | nil => rfl
  | cons c a ih =>
    simp only [List.mem_cons, not_or] at h
    rw [List.cons_append, splitOnce?]
    have : stripPrefix? c!"." (c :: (a ++ '.' :: b)) = none := by
      unfold stripPrefix?
      rw [if_neg h.1]
    rw [this, ih h.2]
    rfl

theorem ofDigitChars_dec_value (n : Nat) : Nat.ofDigitChars 10 (dec n) 0 = n := by
  unfold dec
  rw [Nat.ofDigitChars_ten_toDigits]

theorem ofDigitChars_zeroPad (w n : Nat) : Nat.ofDigitChars 10 (zeroPad w (dec n)) 0 = n := by
  unfold zeroPad
  generalize w - (dec n).length = k
  induction k with
  | zero => exact ofDigitChars_dec_value n
  | succ k ih =>
    rw [List.replicate_succ, List.cons_append, Nat.ofDigitChars_cons]
    exact ih

theorem zeroPad_length {p n : Nat} (hp : 0 < p) (h : n < 10 ^ p) : (zeroPad p (dec n)).length = p := by
  have : (dec n).length ≤ p := by
    unfold dec
    exact (Nat.length_toDigits_le_iff (by decide) hp).mpr h
  unfold zeroPad
  rw [List.length_append, List.length_replicate]
  omega

/-- A number with `p` digits after the point is shown with an error of at most half of the last digit. -/
theorem shown_fixed {p : Nat} (hp : 0 < p) {q : Rat} (h : 0 ≤ q) :
    ∃ v, Spec.shown (fixed p q) = some v ∧ |v - q| ≤ 1 / (2 * 10 ^ p) := by
  have hn : 0 ≤ nearest (q * 10 ^ p) := by
    have := nearest_mono (a := ((0 : Int) : Rat)) (b := q * 10 ^ p) (by push_cast; positivity)
    rwa [nearest_int] at this
  obtain ⟨n, hn⟩ := Int.eq_ofNat_of_zero_le hn
  have herr := nearest_err (q * 10 ^ p)
  rw [hn] at herr
  have hlt : n % 10 ^ p < 10 ^ p := Nat.mod_lt _ (by positivity)
  refine ⟨((n / 10 ^ p : Nat) : Rat) + ((n % 10 ^ p : Nat) : Rat) / 10 ^ p, ?_, ?_⟩
  · unfold fixed Spec.shown
    rw [hn]
    simp only [Int.toNat_natCast]
    have e : dec (n / 10 ^ p) ++ c!"." ++ zeroPad p (dec (n % 10 ^ p)) = dec (n / 10 ^ p) ++ '.' :: zeroPad p (dec (n % 10 ^ p)) := by simp
    rw [e, splitOnce_dot (not_mem_dec (by decide))]
    simp only
    rw [ofDigitChars_dec_value, ofDigitChars_zeroPad, zeroPad_length hp hlt]
  · have hP : (0 : Rat) < 10 ^ p := by positivity
    have e : ((n / 10 ^ p : Nat) : Rat) + ((n % 10 ^ p : Nat) : Rat) / 10 ^ p = (n : Rat) / 10 ^ p := by
      have := Nat.div_add_mod n (10 ^ p)
      have h2 : ((10 ^ p : Nat) : Rat) * ((n / 10 ^ p : Nat) : Rat) + ((n % 10 ^ p : Nat) : Rat) = (n : Rat) := by exact_mod_cast this
      push_cast at h2
      field_simp
      linarith
    rw [e]
    push_cast at herr
    have : (n : Rat) / 10 ^ p - q = ((n : Rat) - q * 10 ^ p) / 10 ^ p := by field_simp
    rw [this, abs_div, abs_of_pos hP, div_le_div_iff₀ hP (by positivity)]
    nlinarith

/-- Division by a power of two is exact. -/
theorem div64_exact {n k : Nat} (h : n ≤ 2 ^ 53) (hk : k ≤ 30) :
    div b64 (mk b64 n) (mk b64 ((2 ^ k : Nat) : Rat)) = .fin (n / ((2 ^ k : Nat) : Rat)) := by
  have hk' : 2 ^ k ≤ 2 ^ 53 := Nat.pow_le_pow_right (by decide) (by omega)
  rw [rnd64_nat h, rnd64_nat hk']
  have hp : (0 : Rat) < ((2 ^ k : Nat) : Rat) := by positivity
  simp only [Fl.div]
  rw [if_neg hp.ne']
  have hone : (1 : Rat) ≤ ((2 ^ k : Nat) : Rat) := by exact_mod_cast Nat.one_le_two_pow
  have hle : (n : Rat) / ((2 ^ k : Nat) : Rat) ≤ 2 ^ b64.digits := by
    refine le_trans (div_le_self (by positivity) hone) ?_
    exact_mod_cast h
  rw [mk_of_small good64 (by positivity) hle]
  congr 1
  refine rnd_of_fits (by decide) ⟨n, -k, ?_, ?_, ?_⟩
  · rw [zpow_neg, zpow_natCast]
    push_cast
    rfl
  · have : |((n : Nat) : Int)| = n := abs_of_nonneg (by positivity)
    rw [this]
    exact_mod_cast h
  · have : b64.low = -1074 := rfl
    omega

/-- **C150.** A size is shown in bytes below 1024 and otherwise in a larger unit, rounded to the last digit shown: one digit after the
point for kilobytes and megabytes, two for gigabytes. -/
theorem C150_bytes (n : Nat) (h : n ≤ 2 ^ 53) :
    (n < 1024 → formatBytes n = dec n ++ c!" B") ∧
    (1024 ≤ n → n < 1024 ^ 2 → ∃ s v, formatBytes n = s ++ c!" KB" ∧ Spec.shown s = some v ∧ |v - n / 1024| ≤ 1 / 20) ∧
    (1024 ^ 2 ≤ n → n < 1024 ^ 3 → ∃ s v, formatBytes n = s ++ c!" MB" ∧ Spec.shown s = some v ∧ |v - n / 1024 ^ 2| ≤ 1 / 20) ∧
    (1024 ^ 3 ≤ n → ∃ s v, formatBytes n = s ++ c!" GB" ∧ Spec.shown s = some v ∧ |v - n / 1024 ^ 3| ≤ 1 / 200) := by
  refine ⟨fun h1 => if_pos h1, fun h1 h2 => ?_, fun h1 h2 => ?_, fun h1 => ?_⟩
  · obtain ⟨v, hv, he⟩ := shown_fixed (p := 1) (by decide) (q := (n : Rat) / ((2 ^ 10 : Nat) : Rat)) (by positivity)
    refine ⟨fixed 1 ((n : Rat) / ((2 ^ 10 : Nat) : Rat)), v, ?_, hv, ?_⟩
    · unfold formatBytes
      rw [if_neg (by omega), if_pos (by omega)]
      have := div64_exact h (k := 10) (by decide)
      have e : ((2 ^ 10 : Nat) : Rat) = 1024 := by norm_num
      rw [e] at this ⊢
      rw [this]
      rfl
    · norm_num at he ⊢
      exact he
  · obtain ⟨v, hv, he⟩ := shown_fixed (p := 1) (by decide) (q := (n : Rat) / ((2 ^ 20 : Nat) : Rat)) (by positivity)
    refine ⟨fixed 1 ((n : Rat) / ((2 ^ 20 : Nat) : Rat)), v, ?_, hv, ?_⟩
    · unfold formatBytes
      rw [if_neg (by omega), if_neg (by omega), if_pos (by omega)]
      have := div64_exact h (k := 20) (by decide)
      have e : ((2 ^ 20 : Nat) : Rat) = 1048576 := by norm_num
      rw [e] at this ⊢
      rw [this]
      rfl
    · norm_num at he ⊢
      exact he
  · obtain ⟨v, hv, he⟩ := shown_fixed (p := 2) (by decide) (q := (n : Rat) / ((2 ^ 30 : Nat) : Rat)) (by positivity)
    refine ⟨fixed 2 ((n : Rat) / ((2 ^ 30 : Nat) : Rat)), v, ?_, hv, ?_⟩
    · unfold formatBytes
      rw [if_neg (by omega), if_neg (by omega), if_neg (by omega)]
      have := div64_exact h (k := 30) (by decide)
      have e : ((2 ^ 30 : Nat) : Rat) = 1073741824 := by norm_num
      rw [e] at this ⊢
      rw [this]
      rfl
    · norm_num at he ⊢
      exact he

/-- **C150 does not hold in full.** The summary shows the size of the images with two units, such as `(500 B MB)`. -/
theorem C150_unit_violated (total : Nat) (a : PptxAnalysis) :
    ∃ before after, summary total a = before ++ c!" (" ++ formatBytes a.imagesSize ++ c!" MB)" ++ after :=
  ⟨c!"PPTX Analysis:\n- Total size: " ++ formatBytes total ++ c!"\n- Images: " ++ dec a.imageCount,
    c!"\n- Slides: " ++ dec a.slideCount ++ c!"\n- XML data: " ++ formatBytes a.xmlSize ++ c!"\n- Other media: " ++ dec a.mediaCount ++
    c!" files (" ++ formatBytes a.otherSize ++ c!")", by
    unfold summary
    simp only [List.append_assoc]
    rfl⟩

/-- **C150 does not hold in full.** The share of the images compares their unpacked size with the size of the packed file; it is more
than one hundred percent as soon as the images are larger than the file. -/
theorem C150_share_violated (total : Nat) (a : PptxAnalysis) (h0 : 0 < total) (h1 : 2 * total ≤ a.imagesSize) (h2 : a.imagesSize ≤ 2 ^ 53) :
    Fl.lt (.fin 100) (imagesPercentage total a) = true := by
  have hpos : (0 : Rat) < total := by exact_mod_cast h0
  unfold imagesPercentage
  rw [if_pos h0, rnd64_nat h2, rnd64_nat (show total ≤ 2 ^ 53 by omega), mk64_hundred]
  simp only [Fl.div]
  rw [if_neg hpos.ne']
  have hq : (2 : Rat) ≤ (a.imagesSize : Rat) / total := by
    rw [le_div_iff₀ hpos]
    exact_mod_cast h1
  rcases mk64_ge (q := (a.imagesSize : Rat) / total) (n := 2) (by norm_num) (by push_cast; exact hq) with e | ⟨s, e, hs⟩
  · rw [e]
    simp [Fl.mul, Fl.lt]
  · rw [e]
    simp only [Fl.mul]
    push_cast at hs
    rcases mk64_ge (q := s * 100) (n := 200) (by norm_num) (by push_cast; linarith) with e | ⟨t, e, ht⟩
    · rw [e]; rfl
    · rw [e]
      simp only [Fl.lt, decide_eq_true_eq]
      push_cast at ht
      linarith

example : formatBytes 500 = c!"500 B" := by decide +kernel

example : (reduction .debug 1000 1001).isNone = true := by decide +kernel

example : ∃ r, reduction .release 1000 250 = some (.fin r) ∧ |r - 75| ≤ 1 / 2 ^ 40 := by
  obtain ⟨r, h, _, _, e⟩ := C150_reduction_partial .release 1000 250 (by decide) (by decide) (by decide)
  exact ⟨r, h, by norm_num at e ⊢; exact e⟩

example : ∃ s v, formatBytes 1536 = s ++ c!" KB" ∧ Spec.shown s = some v ∧ |v - 3 / 2| ≤ 1 / 20 := by
  obtain ⟨s, v, h1, h2, h3⟩ := (C150_bytes 1536 (by decide)).2.1 (by decide) (by decide)
  exact ⟨s, v, h1, h2, by norm_num at h3 ⊢; exact h3⟩

example : Spec.shown c!"1.5" = some (3 / 2) := by
  unfold Spec.shown
  have : splitOnce? c!"." c!"1.5" = some (c!"1", c!"5") := by decide
  rw [this]
  have e : Nat.ofDigitChars 10 c!"1" 0 = 1 ∧ Nat.ofDigitChars 10 c!"5" 0 = 5 := by decide
  simp only [e.1, e.2]
  norm_num

end PptRs.Props
