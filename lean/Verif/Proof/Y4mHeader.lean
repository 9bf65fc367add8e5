import Verif.Model.Y4m
import Mathlib.Tactic.Linarith

/-! Lemmas about the header of raw video. -/

namespace Alfalfa

theorem toNat_digit {d : Nat} (h : d < 10) : (UInt8.ofNat (48 + d)).toNat = 48 + d := by
  rw [UInt8.toNat_ofNat']
  omega

/-- A digit. -/
def Digit (c : UInt8) : Prop := 48 ≤ c.toNat ∧ c.toNat ≤ 57

theorem digit_ofNat {d : Nat} (h : d < 10) : Digit (UInt8.ofNat (48 + d)) := by
  unfold Digit; rw [toNat_digit h]; omega

theorem decimal_spec (n : Nat) : decimal n ≠ [] ∧ (∀ c ∈ decimal n, Digit c) ∧ (decimal n).foldl (fun v c => v * 10 + (c.toNat - 48)) 0 = n := by
  induction n using Nat.strongRecOn with
  | _ n ih =>
    rw [decimal]
    split
    · rename_i h
      refine ⟨by simp, ?_, ?_⟩
      · intro c hc
        obtain rfl := List.mem_singleton.1 hc
        exact digit_ofNat h
      · rw [List.foldl_cons, List.foldl_nil, toNat_digit h]; omega
    · rename_i h
      obtain ⟨h1, h2, h3⟩ := ih (n / 10) (by omega)
      refine ⟨by simp, ?_, ?_⟩
      · intro c hc
        rcases List.mem_append.1 hc with hc | hc
        · exact h2 c hc
        · obtain rfl := List.mem_singleton.1 hc
          exact digit_ofNat (Nat.mod_lt _ (by omega))
      · rw [List.foldl_append, h3, List.foldl_cons, List.foldl_nil, toNat_digit (Nat.mod_lt _ (by omega))]
        omega

theorem digit_test {c : UInt8} (h : Digit c) : (48 ≤ c && c ≤ 57) = true := by
  obtain ⟨h1, h2⟩ := h
  simp only [Bool.and_eq_true, decide_eq_true_eq, UInt8.le_iff_toNat_le]
  exact ⟨h1, h2⟩

theorem stoi_decimal {n : Nat} (h : n < 2147483648) : stoi (decimal n) = some (n : Int) := by
  obtain ⟨h1, h2, h3⟩ := decimal_spec n
  have hall : (decimal n).takeWhile (fun c => 48 ≤ c && c ≤ 57) = decimal n :=
    by have := List.takeWhile_append_of_pos (l₂ := []) fun c hc => digit_test (h2 c hc); simpa using this
  unfold stoi
  cases hd : decimal n with
  | nil => exact absurd hd h1
  | cons c rest =>
    rw [hd] at h2 h3 hall
    have hc := h2 c List.mem_cons_self
    have e1 : c ≠ 45 := by rintro rfl; exact absurd hc.1 (by decide)
    have e2 : c ≠ 43 := by rintro rfl; exact absurd hc.1 (by decide)
    split
    rename_i negative s heq
    split at heq
    · rename_i he; exact absurd (List.cons.inj he).1 e1
    · rename_i he; exact absurd (List.cons.inj he).1 e2
    · cases heq
      simp only [hall, h3]
      rw [if_pos ⟨by simp, by simp only [Bool.false_eq_true, if_false]; omega⟩]
      simp

theorem parseField_decimal {n : Nat} (h : n < 65536) : parseField (decimal n) = .ok n := by
  unfold parseField
  rw [stoi_decimal (by omega)]
  simp only [toUInt16]
  congr 1
  omega

theorem parseFraction_decimal {n d : Nat} (hn : n < 65536) (hd : d < 65536) : parseFraction (decimal n ++ 58 :: decimal d) = .ok (n, d) := by
  have h : ∀ c ∈ decimal n, decide (c ≠ 58) = true := by
    intro c hc
    have := (decimal_spec n).2.1 c hc
    simp only [decide_eq_true_eq]
    rintro rfl
    exact absurd this.2 (by decide)
  unfold parseFraction
  have e1 : (decimal n ++ 58 :: decimal d).takeWhile (· ≠ 58) = decimal n := by
    rw [List.takeWhile_append_of_pos h]
    simp
  have e2 : (decimal n ++ 58 :: decimal d).dropWhile (· ≠ 58) = 58 :: decimal d := by
    rw [List.dropWhile_append_of_pos h]
    simp
  simp only [e1, e2, parseField_decimal hn, parseField_decimal hd]
  rfl

/-! ### Words -/

theorem words_word : ∀ (t current rest : List UInt8), (∀ c ∈ t, isSpace c = false) → current ++ t ≠ [] →
    words current (t ++ 32 :: rest) = (current ++ t) :: words [] rest ∧ words current t = [current ++ t] := by
  intro t
  induction t with
  | nil =>
    intro current rest _ hne
    rw [List.append_nil] at hne ⊢
    refine ⟨?_, by rw [words, if_neg hne]⟩
    rw [List.nil_append, words, if_pos (by decide), if_neg hne]
  | cons c t ih =>
    intro current rest h hne
    have := ih (current ++ [c]) rest (fun x hx => h x (List.mem_cons_of_mem _ hx)) (by simp)
    rw [List.append_assoc, List.singleton_append] at this
    rw [List.cons_append, words, words, if_neg (by rw [h c List.mem_cons_self]; decide), if_neg (by rw [h c List.mem_cons_self]; decide)]
    exact this

/-- Words with a space between them. -/
def spaced : List (List UInt8) → List UInt8
  | [] => []
  | [t] => t
  | t :: ts => t ++ 32 :: spaced ts

theorem words_spaced : ∀ ts : List (List UInt8), (∀ t ∈ ts, t ≠ [] ∧ ∀ c ∈ t, isSpace c = false) → words [] (spaced ts) = ts := by
  intro ts
  induction ts with
  | nil => intro _; rfl
  | cons t ts ih =>
    intro h
    obtain ⟨h1, h2⟩ := h t List.mem_cons_self
    cases ts with
    | nil => exact (words_word t [] [] h2 h1).2
    | cons s ts =>
      have := (words_word t [] (spaced (s :: ts)) h2 h1).1
      rw [ih fun x hx => h x (List.mem_cons_of_mem _ hx)] at this
      exact this

theorem splitLine_line : ∀ (line rest : List UInt8), 10 ∉ line → splitLine (line ++ 10 :: rest) = (line, rest, false) := by
  intro line
  induction line with
  | nil => intro rest _; rfl
  | cons c line ih =>
    intro rest h
    simp only [List.mem_cons, not_or] at h
    rw [List.cons_append, splitLine, if_neg (Ne.symm h.1), ih rest h.2]

theorem spaced_no_newline : ∀ ts : List (List UInt8), (∀ t ∈ ts, ∀ c ∈ t, isSpace c = false) → 10 ∉ spaced ts := by
  intro ts
  have h10 : isSpace 10 = true := by decide
  induction ts with
  | nil => intro _; simp [spaced]
  | cons t ts ih =>
    intro h hm
    cases ts with
    | nil =>
      have := h t List.mem_cons_self 10 hm
      rw [h10] at this
      exact nomatch this
    | cons s ts =>
      rcases List.mem_append.1 (show (10 : UInt8) ∈ t ++ 32 :: spaced (s :: ts) from hm) with hm | hm
      · have := h t List.mem_cons_self 10 hm
        rw [h10] at this
        exact nomatch this
      · rcases List.mem_cons.1 hm with hm | hm
        · exact absurd hm (by decide)
        · exact ih (fun x hx => h x (List.mem_cons_of_mem _ hx)) hm

theorem digit_not_space {c : UInt8} (h : Digit c) : isSpace c = false := by
  obtain ⟨h1, h2⟩ := h
  unfold isSpace
  have e1 : (c == 32) = false := by
    rw [beq_eq_false_iff_ne]
    rintro rfl
    exact absurd h1 (by decide)
  have e2 : decide (c ≤ 13) = false := by
    rw [decide_eq_false_iff_not, UInt8.le_iff_toNat_le]
    have : (13 : UInt8).toNat = 13 := rfl
    omega
  rw [e1, e2]
  simp

/-- The words for the colour space. -/
def ColorSpace.words : ColorSpace → List UInt8 × List UInt8
  | .c420jpeg => (ascii "C420jpeg", ascii "XYSCSS=420JPEG")
  | .c420paldv => (ascii "C420paldv", ascii "XYSCSS=420PALDV")
  | .c420 => (ascii "C420", ascii "XYSCSS=420")
  | .c422 => (ascii "C422", ascii "XYSCSS=422")
  | .c444 => (ascii "C444", ascii "XYSCSS=444")

/-- The words of a header. -/
def Y4MHeader.words (h : Y4MHeader) : List (List UInt8) :=
  [[89, 85, 86, 52, 77, 80, 69, 71, 50], 87 :: decimal h.width, 72 :: decimal h.height, 70 :: (decimal h.fpsNumerator ++ 58 :: decimal h.fpsDenominator),
   73 :: h.interlacing.letter, 65 :: (decimal h.aspectNumerator ++ 58 :: decimal h.aspectDenominator), h.color.words.1, h.color.words.2]

theorem text_eq (h : Y4MHeader) : h.text = spaced h.words ++ [10] := by
  have e0 : ascii "YUV4MPEG2 " = [89, 85, 86, 52, 77, 80, 69, 71, 50, 32] := by decide +kernel
  have e1 : ascii "W" = [87] := by decide
  have e2 : ascii "H" = [72] := by decide
  have e3 : ascii "F" = [70] := by decide
  have e4 : ascii "I" = [73] := by decide
  have e5 : ascii "A" = [65] := by decide
  have e6 : ascii " " = [32] := by decide
  have e7 : ascii ":" = [58] := by decide
  have e8 : ascii "\n" = [10] := by decide
  have e9 : h.color.text = h.color.words.1 ++ 32 :: h.color.words.2 := by cases h.color <;> decide +kernel
  unfold Y4MHeader.text Y4MHeader.words
  rw [e0, e1, e2, e3, e4, e5, e6, e7, e8, e9]
  simp [spaced]

theorem words_clean (h : Y4MHeader) : ∀ t ∈ h.words, t ≠ [] ∧ ∀ c ∈ t, isSpace c = false := by
  have num : ∀ n, ∀ c ∈ decimal n, isSpace c = false := fun n c hc => digit_not_space ((decimal_spec n).2.1 c hc)
  have frac : ∀ n d, ∀ c ∈ decimal n ++ 58 :: decimal d, isSpace c = false := by
    intro n d c hc
    rcases List.mem_append.1 hc with hc | hc
    · exact num n c hc
    · rcases List.mem_cons.1 hc with rfl | hc
      · decide
      · exact num d c hc
  have col : h.color.words.1 ≠ [] ∧ h.color.words.2 ≠ [] ∧ (∀ c ∈ h.color.words.1, isSpace c = false) ∧ (∀ c ∈ h.color.words.2, isSpace c = false) := by
    cases h.color <;> decide +kernel
  have let_ : ∀ c ∈ h.interlacing.letter, isSpace c = false := by cases h.interlacing <;> decide +kernel
  intro t ht
  have ht : t = [89, 85, 86, 52, 77, 80, 69, 71, 50] ∨ t = 87 :: decimal h.width ∨ t = 72 :: decimal h.height ∨ t = 70 :: (decimal h.fpsNumerator ++ 58 :: decimal h.fpsDenominator) ∨
      t = 73 :: h.interlacing.letter ∨ t = 65 :: (decimal h.aspectNumerator ++ 58 :: decimal h.aspectDenominator) ∨ t = h.color.words.1 ∨ t = h.color.words.2 := by
    simpa [Y4MHeader.words] using ht
  have cons : ∀ (a : UInt8) (l : List UInt8), isSpace a = false → (∀ c ∈ l, isSpace c = false) → a :: l ≠ [] ∧ ∀ c ∈ a :: l, isSpace c = false := by
    intro a l ha hl
    refine ⟨by simp, fun c hc => ?_⟩
    rcases List.mem_cons.1 hc with rfl | hc
    · exact ha
    · exact hl c hc
  rcases ht with rfl | rfl | rfl | rfl | rfl | rfl | rfl | rfl
  · decide
  · exact cons _ _ (by decide) (num _)
  · exact cons _ _ (by decide) (num _)
  · exact cons _ _ (by decide) (frac _ _)
  · exact cons _ _ (by decide) let_
  · exact cons _ _ (by decide) (frac _ _)
  · exact ⟨col.1, col.2.2.1⟩
  · exact ⟨col.2.1, col.2.2.2⟩

/-- The fields are 16-bit numbers, and the picture is not empty. -/
structure Y4MHeader.Fits (h : Y4MHeader) : Prop where
  width : 0 < h.width ∧ h.width < 65536
  height : 0 < h.height ∧ h.height < 65536
  fps : h.fpsNumerator < 65536 ∧ h.fpsDenominator < 65536
  aspect : h.aspectNumerator < 65536 ∧ h.aspectDenominator < 65536

theorem take_width (h : Y4MHeader) {n : Nat} (hn : n < 65536) : h.take (87 :: decimal n) = .ok { h with width := n } := by
  unfold Y4MHeader.take
  simp only
  rw [if_pos (by decide), parseField_decimal hn]
  rfl

theorem take_height (h : Y4MHeader) {n : Nat} (hn : n < 65536) : h.take (72 :: decimal n) = .ok { h with height := n } := by
  unfold Y4MHeader.take
  simp only
  rw [if_neg (by decide), if_pos (by decide), parseField_decimal hn]
  rfl

theorem take_fps (h : Y4MHeader) {n d : Nat} (hn : n < 65536) (hd : d < 65536) :
    h.take (70 :: (decimal n ++ 58 :: decimal d)) = .ok { h with fpsNumerator := n, fpsDenominator := d } := by
  unfold Y4MHeader.take
  simp only
  rw [if_neg (by decide), if_neg (by decide), if_pos (by decide), parseFraction_decimal hn hd]
  rfl

theorem take_aspect (h : Y4MHeader) {n d : Nat} (hn : n < 65536) (hd : d < 65536) :
    h.take (65 :: (decimal n ++ 58 :: decimal d)) = .ok { h with aspectNumerator := n, aspectDenominator := d } := by
  unfold Y4MHeader.take
  simp only
  rw [if_neg (by decide), if_neg (by decide), if_neg (by decide), if_neg (by decide), if_pos (by decide), parseFraction_decimal hn hd]
  rfl

theorem take_interlacing (h : Y4MHeader) (i : Interlacing) : h.take (73 :: i.letter) = .ok { h with interlacing := i } := by
  have e : ∀ i : Interlacing, i.letter = [match i with | .progressive => 112 | .topFieldFirst => 116 | .bottomFieldFirst => 98 | .mixedModes => 109] := by intro i; cases i <;> decide
  rw [e]
  cases i <;> rfl

theorem take_color (h : Y4MHeader) (c : ColorSpace) : h.take c.words.1 = (if c = .c422 ∨ c = .c444 then .error .format else .ok { h with color := .c420 }) ∧
    h.take c.words.2 = .ok h := by
  have e : ∀ c : ColorSpace, (∃ t, c.words.1 = 67 :: t) ∧ (∃ t, c.words.2 = 88 :: t) ∧ (c.words.1.take 4 = ascii "C420" ↔ ¬ (c = .c422 ∨ c = .c444)) := by
    intro c
    cases c <;> exact ⟨⟨_, rfl⟩, ⟨_, rfl⟩, by decide +kernel⟩
  obtain ⟨⟨t1, h1⟩, ⟨t2, h2⟩, h3⟩ := e c
  constructor
  · rw [h1] at h3 ⊢
    unfold Y4MHeader.take
    simp only
    rw [if_neg (by decide), if_neg (by decide), if_neg (by decide), if_neg (by decide), if_neg (by decide), if_pos (by decide)]
    by_cases hc : c = .c422 ∨ c = .c444
    · rw [if_pos hc, if_pos fun he => h3.1 he hc]
    · rw [if_neg hc, if_neg fun he => he (h3.2 hc)]
      rfl
  · rw [h2]
    rfl

/-- Reading a header that was written. -/
theorem open_text (h : Y4MHeader) (hh : h.Fits) (rest : List UInt8) :
    Y4MReader.open (h.text ++ rest) = if h.color = .c422 ∨ h.color = .c444 then .error .format
      else .ok { header := { h with color := .c420 }, input := { rest := rest } } := by
  have hclean := words_clean h
  unfold Y4MReader.open Y4MInput.getline
  rw [if_neg (by simp), text_eq, List.append_assoc, List.singleton_append, splitLine_line _ _ (spaced_no_newline _ fun t ht => (hclean t ht).2)]
  simp only [bind, Except.bind]
  rw [words_spaced _ hclean]
  have magic : ascii "YUV4MPEG2" = [89, 85, 86, 52, 77, 80, 69, 71, 50] := by decide +kernel
  unfold Y4MHeader.words
  simp only [magic, ne_eq, not_true_eq_false, if_false]
  simp only [List.foldlM_cons, List.foldlM_nil, take_width _ hh.width.2, take_height _ hh.height.2, take_fps _ hh.fps.1 hh.fps.2, take_interlacing,
    take_aspect _ hh.aspect.1 hh.aspect.2, (take_color _ _).1, (take_color _ _).2, bind, Except.bind]
  by_cases hc : h.color = .c422 ∨ h.color = .c444
  · simp only [if_pos hc]
  · simp only [if_neg hc, pure, Except.pure]
    rw [if_neg (by have := hh.width; have := hh.height; omega)]

end Alfalfa
