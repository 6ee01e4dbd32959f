import Verif.Props.Tle

/-!
# C20, C21: reading back the fields of an element set
-/

namespace Tatc.Props
open Tatc.Text Tatc.Tle Tatc.Spec

/-! ### The columns of a written line -/

theorem field_length (fill : Char) (w n : Nat) (hw : 0 < w) (h : n < 10 ^ w) :
    (field fill w n).length = w := by
  have := dec_length_le w n hw h
  simp only [field, List.length_append, List.length_replicate]
  omega

theorem fixed_length (fill : Char) (w p n : Nat) (hw : 0 < w) (hp : 0 < p) (h : n < 10 ^ (w + p)) :
    (fixed fill w p n).length = w + 1 + p := by
  have h1 : n / 10 ^ p < 10 ^ w := by
    rw [Nat.div_lt_iff_lt_mul (by positivity), ← pow_add]; exact h
  have h2 : n % 10 ^ p < 10 ^ p := Nat.mod_lt _ (by positivity)
  simp only [fixed, List.length_append, List.length_singleton, field_length _ _ _ hw h1,
    field_length _ _ _ hp h2]

theorem field_zero_digits (w n : Nat) : ∀ c ∈ field '0' w n, '0' ≤ c ∧ c ≤ '9' := by
  intro c hc
  rcases List.mem_append.mp hc with hc | hc
  · rw [List.eq_of_mem_replicate hc]; decide
  · exact dec_digits n c hc

theorem field_ne_nil (fill : Char) (w n : Nat) : field fill w n ≠ [] := by
  simp [field, dec_ne_nil]

theorem digitsVal_field (w n : Nat) : digitsVal (field '0' w n) = n := by
  rw [field, digitsVal_append, digitsVal_zeros, digitsVal_dec]; simp

/-- A filled integer reads back. -/
theorem pyInt_field (fill : Char) (hfill : fill = ' ' ∨ fill = '0') (w n : Nat) :
    pyInt (field fill w n) = .ok (n : Int) := by
  rcases hfill with rfl | rfl
  · rw [field, pyInt_of_digits _ _ (dec_ne_nil n) (dec_digits n), digitsVal_dec]
  · have := pyInt_of_digits 0 (field '0' w n) (field_ne_nil _ _ _) (field_zero_digits w n)
    rw [digitsVal_field] at this
    simpa using this

/-- A filled decimal fraction reads back. -/
theorem pyFloat_fixed (fill : Char) (hfill : fill = ' ' ∨ fill = '0') (w p n : Nat) (hp : 0 < p) :
    pyFloat (fixed fill w p n) = .ok ((n : ℚ) / 10 ^ p) := by
  have h2 : n % 10 ^ p < 10 ^ p := Nat.mod_lt _ (by positivity)
  have hv : ((n / 10 ^ p : ℕ) : ℚ) + ((n % 10 ^ p : ℕ) : ℚ) / 10 ^ p = (n : ℚ) / 10 ^ p := by
    have h := Nat.div_add_mod n (10 ^ p)
    have hq : (10 : ℚ) ^ p * ((n / 10 ^ p : ℕ) : ℚ) + ((n % 10 ^ p : ℕ) : ℚ) = n := by
      exact_mod_cast h
    rw [← hq, add_div, mul_div_cancel_left₀ _ (by positivity)]
  have hl := field_length '0' p (n % 10 ^ p) hp h2
  rcases hfill with rfl | rfl
  · have := pyFloat_point (w - (dec (n / 10 ^ p)).length) (dec (n / 10 ^ p)) (field '0' p (n % 10 ^ p))
      (dec_digits _) (field_zero_digits _ _) (field_ne_nil _ _ _)
    rw [digitsVal_dec, digitsVal_field, hl, hv] at this
    rw [← this]
    simp [fixed, field, List.append_assoc]
  · have := pyFloat_point 0 (field '0' w (n / 10 ^ p)) (field '0' p (n % 10 ^ p))
      (field_zero_digits _ _) (field_zero_digits _ _) (field_ne_nil _ _ _)
    rw [digitsVal_field, digitsVal_field, hl, hv] at this
    rw [← this]
    simp [fixed]

theorem pyFloat_signed (negative : Bool) (p n : Nat) (hp : 0 < p) (h : n < 10 ^ p) :
    pyFloat (signCol negative :: '.' :: field '0' p n) = .ok (signed negative ((n : ℚ) / 10 ^ p)) := by
  have hl := field_length '0' p n hp h
  cases negative
  · have := pyFloat_point 1 [] (field '0' p n) (by simp) (field_zero_digits _ _) (field_ne_nil _ _ _)
    rw [digitsVal_field, hl] at this
    simpa [signCol, signed, digitsVal] using this
  · have := pyFloat_neg_point [] (field '0' p n) (by simp) (field_zero_digits _ _) (field_ne_nil _ _ _)
    rw [digitsVal_field, hl] at this
    simpa [signCol, signed, digitsVal] using this

theorem strip_digits (l : List Char) (hl : l ≠ []) (h : ∀ c ∈ l, '0' ≤ c ∧ c ≤ '9') (i : Nat) :
    strip (List.replicate i ' ' ++ l) = l := by
  have hb : ∀ c ∈ l, c ≠ ' ' := fun c hc => digit_ne (h c hc) (by decide)
  have hs := strip_blanks i 0 l hl (fun c hc => hb c (List.mem_of_mem_head? hc))
    (fun c hc => hb c (List.mem_of_mem_getLast? hc))
  simpa using hs

theorem pyFloat_zero_point (l : List Char) (hl : l ≠ []) (h : ∀ c ∈ l, '0' ≤ c ∧ c ≤ '9') :
    pyFloat (['0', '.'] ++ l) = .ok ((digitsVal l : ℚ) / 10 ^ l.length) := by
  have := pyFloat_point 0 ['0'] l (by simp) h hl
  simpa [digitsVal, digitVal] using this

theorem pyInt_expSign (negative : Bool) (d : Nat) (hd : d < 10) :
    pyInt [expSign negative, digitChar d] = .ok (if negative then -(d : Int) else d) := by
  cases negative <;> interval_cases d <;> decide +kernel

/-- A non-negative mantissa and an exponent read back. -/
theorem pseudoFloat_field (m e : Nat) (eneg : Bool) (hm : m < 10 ^ 5) (he : e < 10) :
    pseudoFloat (signCol false :: field '0' 5 m) [expSign eneg, digitChar e] =
      .ok ((m : ℚ) / 10 ^ 5 * power eneg e) := by
  have hs := strip_digits (field '0' 5 m) (field_ne_nil _ _ _) (field_zero_digits _ _) 1
  have hl := field_length '0' 5 m (by decide) hm
  have hf := pyFloat_zero_point (field '0' 5 m) (field_ne_nil _ _ _) (field_zero_digits _ _)
  rw [digitsVal_field, hl] at hf
  have hs' : strip (signCol false :: field '0' 5 m) = field '0' 5 m := by simpa [signCol] using hs
  unfold pseudoFloat
  rw [hs', hf, pyInt_expSign eneg e he]
  cases eneg <;> simp [power, bind, Except.bind, pure, Except.pure]

/-- A negative mantissa makes `float("0." + "-…")`, which raises. -/
theorem pseudoFloat_negative (l e : List Char) (hl : l ≠ []) (hlast : ∀ c ∈ l.getLast?, c ≠ ' ') :
    pseudoFloat ('-' :: l) e = .error .valueError := by
  have hlast' : ∀ c ∈ ('-' :: l).getLast?, c ≠ ' ' := by
    intro c hc
    rw [List.getLast?_cons_of_ne_nil hl] at hc
    exact hlast c hc
  have hs : strip ('-' :: l) = '-' :: l := strip_of_ends _ (by simp) hlast'
  have hs2 : strip ('0' :: '.' :: '-' :: l) = '0' :: '.' :: '-' :: l := by
    apply strip_of_ends
    · simp
    · intro c hc
      rw [List.getLast?_cons_of_ne_nil (by simp), List.getLast?_cons_of_ne_nil (by simp)] at hc
      exact hlast' c hc
  have hd : isDigit '-' = false := by decide
  have hd0 : isDigit '0' = true := by decide
  have hdp : isDigit '.' = false := by decide
  have hu : unsigned ('0' :: '.' :: '-' :: l) = none := by
    unfold unsigned
    simp [hd, hd0, hdp]
  unfold pseudoFloat
  rw [hs]
  have : pyFloat (['0', '.'] ++ '-' :: l) = .error .valueError := by
    have hs3 : splitSign ('0' :: '.' :: '-' :: l) = (false, '0' :: '.' :: '-' :: l) := rfl
    show pyFloat ('0' :: '.' :: '-' :: l) = _
    unfold pyFloat
    rw [hs2, hs3]
    simp only [hu]
  rw [this]
  rfl

/-! ### Written lines have the syntax of element sets -/

theorem matchSeq_append (ps qs : List (Char → Bool)) (a b : Line) (h : ps.length = a.length) :
    matchSeq (ps ++ qs) (a ++ b) = (matchSeq ps a && matchSeq qs b) := by
  induction ps generalizing a with
  | nil =>
    have : a = [] := by rw [← List.length_eq_zero_iff, ← h]; rfl
    subst this; simp [matchSeq]
  | cons p ps ih =>
    cases a with
    | nil => simp at h
    | cons c a =>
      simp only [List.cons_append, matchSeq]
      rw [ih a (by simpa using h), Bool.and_assoc]

theorem matchSeq_rep (n : Nat) (p : Char → Bool) (l : Line) (h : l.length = n)
    (hp : ∀ c ∈ l, p c = true) : matchSeq (rep n p) l = true := by
  induction l generalizing n with
  | nil => subst h; rfl
  | cons c l ih =>
    subst h
    show (p c && matchSeq (rep l.length p) l) = true
    rw [hp c (by simp), ih l.length rfl (fun x hx => hp x (by simp [hx]))]
    rfl

/-- Column by column. -/
theorem matchSeq_flatten (pats : List (List (Char → Bool))) (cols : List Line)
    (h : List.Forall₂ (fun p c => p.length = c.length ∧ matchSeq p c = true) pats cols) :
    matchSeq pats.flatten cols.flatten = true := by
  induction h with
  | nil => rfl
  | cons h _ ih =>
    rw [List.flatten_cons, List.flatten_cons, matchSeq_append _ _ _ _ h.1, h.2, ih]; rfl

theorem spDigit_digit {c : Char} (h : '0' ≤ c ∧ c ≤ '9') : spDigit c = true :=
  (spDigit_iff c).mpr (Or.inr h)

theorem field_spDigit (fill : Char) (hf : fill = ' ' ∨ fill = '0') (w n : Nat) :
    ∀ c ∈ field fill w n, spDigit c = true := by
  intro c hc
  rcases List.mem_append.mp hc with hc | hc
  · rw [List.eq_of_mem_replicate hc]
    rcases hf with rfl | rfl <;> decide
  · exact spDigit_digit (dec_digits n c hc)

theorem match_field (fill : Char) (hf : fill = ' ' ∨ fill = '0') (w n : Nat) (hw : 0 < w) (h : n < 10 ^ w) :
    (rep w spDigit).length = (field fill w n).length ∧ matchSeq (rep w spDigit) (field fill w n) = true := by
  have hl := field_length fill w n hw h
  exact ⟨by rw [hl]; simp [rep], matchSeq_rep w _ _ hl (field_spDigit fill hf w n)⟩

theorem match_catalog (fill : Char) (hf : fill = ' ' ∨ fill = '0') (n : Nat) (h : n < 10 ^ 5) :
    (Tle.catalogFirst :: rep 4 spDigit).length = (field fill 5 n).length ∧
      matchSeq (Tle.catalogFirst :: rep 4 spDigit) (field fill 5 n) = true := by
  obtain ⟨h1, h2⟩ := match_field fill hf 5 n (by decide) h
  refine ⟨by rw [← h1]; rfl, ?_⟩
  generalize field fill 5 n = l at h1 h2
  cases l with
  | nil => simp [rep] at h1
  | cons c l =>
    have h2' : (spDigit c && matchSeq (rep 4 spDigit) l) = true := h2
    rw [Bool.and_eq_true] at h2'
    show (Tle.catalogFirst c && matchSeq (rep 4 spDigit) l) = true
    rw [h2'.2, (catalogFirst_iff c).mpr (Or.inl ((spDigit_iff c).mp h2'.1))]
    rfl

theorem match_fixed (fill : Char) (hf : fill = ' ' ∨ fill = '0') (w p n : Nat) (hw : 0 < w) (hp : 0 < p)
    (h : n < 10 ^ (w + p)) :
    (rep w spDigit ++ [lit '.'] ++ rep p spDigit).length = (fixed fill w p n).length ∧
      matchSeq (rep w spDigit ++ [lit '.'] ++ rep p spDigit) (fixed fill w p n) = true := by
  have h1 : n / 10 ^ p < 10 ^ w := by
    rw [Nat.div_lt_iff_lt_mul (by positivity), ← pow_add]; exact h
  have h2 : n % 10 ^ p < 10 ^ p := Nat.mod_lt _ (by positivity)
  have m1 := match_field fill hf w _ hw h1
  have m2 := match_field '0' (Or.inr rfl) p _ hp h2
  refine ⟨by rw [fixed_length fill w p n hw hp h]; simp [rep]; omega, ?_⟩
  unfold fixed
  rw [matchSeq_append _ _ _ _ (by rw [List.length_append, List.length_append, m1.1]; rfl),
    matchSeq_append _ _ _ _ m1.1, m1.2, m2.2]
  rfl

theorem match_char (p : Char → Bool) (c : Char) (h : p c = true) :
    [p].length = [c].length ∧ matchSeq [p] [c] = true := by
  refine ⟨rfl, ?_⟩
  simp [matchSeq, h]

theorem signCol_spSign (b : Bool) : spSign (signCol b) = true := by cases b <;> decide
theorem signCol_spZeroSign (b : Bool) : spZeroSign (signCol b) = true := by cases b <;> decide
theorem expSign_sign (b : Bool) : Tle.sign (expSign b) = true := by cases b <;> decide

theorem match_cons (p : Char → Bool) (ps : List (Char → Bool)) (c : Char) (l : Line) (hc : p c = true)
    (h : ps.length = l.length ∧ matchSeq ps l = true) :
    (p :: ps).length = (c :: l).length ∧ matchSeq (p :: ps) (c :: l) = true := by
  refine ⟨by simp [h.1], ?_⟩
  simp [matchSeq, hc, h.2]

theorem match_piece (piece : List Char) (h3 : piece.length ≤ 3) (hu : ∀ c ∈ piece, Upper c) :
    (rep 3 spUpper).length = (piece ++ List.replicate (3 - piece.length) ' ').length ∧
      matchSeq (rep 3 spUpper) (piece ++ List.replicate (3 - piece.length) ' ') = true := by
  have hl : (piece ++ List.replicate (3 - piece.length) ' ').length = 3 := by
    simp only [List.length_append, List.length_replicate]; omega
  refine ⟨by rw [hl]; rfl, matchSeq_rep 3 _ _ hl ?_⟩
  intro c hc
  rcases List.mem_append.mp hc with hc | hc
  · have := (upper_iff c).mpr (hu c hc)
    simp [spUpper, this]
  · rw [List.eq_of_mem_replicate hc]; decide

theorem digitChar_spDigit {d : Nat} (h : d < 10) : spDigit (digitChar d) = true :=
  spDigit_digit (digitChar_digit h)

theorem line_eq (cols : List Line) : withChecksum cols =
    (cols ++ [[digitChar ((cols.flatten.map checksumWeight).sum % 10)]]).flatten := by
  simp [withChecksum]

theorem line1_match (x : Fields) (h : x.InRange) : matchLine1 x.line1 = true := by
  unfold matchLine1
  rw [Bool.or_eq_true]
  left
  have hz : ('0' : Char) = ' ' ∨ ('0' : Char) = '0' := Or.inr rfl
  have := matchSeq_flatten
    [[lit '1', lit ' '], Tle.catalogFirst :: rep 4 spDigit, [upper], [lit ' '], rep 2 spDigit, rep 3 spDigit,
      rep 3 spUpper, [lit ' '], rep 2 spDigit, rep 3 spDigit ++ [lit '.'] ++ rep 8 spDigit, [lit ' '],
      spZeroSign :: lit '.' :: rep 8 spDigit, [lit ' '], spSign :: rep 5 spDigit, [Tle.sign, spDigit], [lit ' '],
      spSign :: rep 5 spDigit, [Tle.sign, spDigit], [lit ' '], [spDigit], [lit ' '], rep 4 spDigit, [spDigit]]
    (x.body1 ++ [[digitChar ((x.body1.flatten.map checksumWeight).sum % 10)]])
    (by
      refine .cons ⟨rfl, rfl⟩ <| .cons (match_catalog _ h.fill _ h.catalog) <|
        .cons (match_char _ _ ((upper_iff _).mpr h.classification)) <| .cons ⟨rfl, rfl⟩ <|
        .cons (match_field _ hz _ _ (by decide) h.launchYear) <|
        .cons (match_field _ hz _ _ (by decide) h.launchNumber) <|
        .cons (match_piece _ h.piece h.letters) <| .cons ⟨rfl, rfl⟩ <|
        .cons (match_field _ hz _ _ (by decide) h.epochYear) <|
        .cons (match_fixed _ h.fill 3 8 _ (by decide) (by decide) h.epochDay) <| .cons ⟨rfl, rfl⟩ <|
        .cons (match_cons _ _ _ _ (signCol_spZeroSign _) (match_cons _ _ _ _ rfl
          (match_field _ hz _ _ (by decide) h.ndot))) <| .cons ⟨rfl, rfl⟩ <|
        .cons (match_cons _ _ _ _ (signCol_spSign _) (match_field _ hz _ _ (by decide) h.nddot)) <|
        .cons (match_cons _ _ _ _ (expSign_sign _) (match_char _ _ (digitChar_spDigit h.nddotExp))) <|
        .cons ⟨rfl, rfl⟩ <|
        .cons (match_cons _ _ _ _ (signCol_spSign _) (match_field _ hz _ _ (by decide) h.bstar)) <|
        .cons (match_cons _ _ _ _ (expSign_sign _) (match_char _ _ (digitChar_spDigit h.bstarExp))) <|
        .cons ⟨rfl, rfl⟩ <| .cons (match_char _ _ (digitChar_spDigit h.ephemeris)) <| .cons ⟨rfl, rfl⟩ <|
        .cons (match_field _ h.fill _ _ (by decide) h.elementSet) <|
        .cons (match_char _ _ (digitChar_spDigit (Nat.mod_lt _ (by decide)))) .nil)
  rw [Fields.line1, line_eq]
  exact this

theorem line2_match (x : Fields) (h : x.InRange) : matchLine2 x.line2 = true := by
  unfold matchLine2
  have hz : ('0' : Char) = ' ' ∨ ('0' : Char) = '0' := Or.inr rfl
  have := matchSeq_flatten
    [[lit '2', lit ' '], Tle.catalogFirst :: rep 4 spDigit, [lit ' '],
      rep 3 spDigit ++ [lit '.'] ++ rep 4 spDigit, [lit ' '], rep 3 spDigit ++ [lit '.'] ++ rep 4 spDigit,
      [lit ' '], rep 7 spDigit, [lit ' '], rep 3 spDigit ++ [lit '.'] ++ rep 4 spDigit, [lit ' '],
      rep 3 spDigit ++ [lit '.'] ++ rep 4 spDigit, [lit ' '], rep 2 spDigit ++ [lit '.'] ++ rep 8 spDigit,
      rep 5 spDigit, [spDigit]]
    (x.body2 ++ [[digitChar ((x.body2.flatten.map checksumWeight).sum % 10)]])
    (by
      refine .cons ⟨rfl, rfl⟩ <| .cons (match_catalog _ h.fill _ h.catalog) <| .cons ⟨rfl, rfl⟩ <|
        .cons (match_fixed _ h.fill 3 4 _ (by decide) (by decide) h.inclination) <| .cons ⟨rfl, rfl⟩ <|
        .cons (match_fixed _ h.fill 3 4 _ (by decide) (by decide) h.raan) <| .cons ⟨rfl, rfl⟩ <|
        .cons (match_field _ hz _ _ (by decide) h.eccentricity) <| .cons ⟨rfl, rfl⟩ <|
        .cons (match_fixed _ h.fill 3 4 _ (by decide) (by decide) h.perigee) <| .cons ⟨rfl, rfl⟩ <|
        .cons (match_fixed _ h.fill 3 4 _ (by decide) (by decide) h.meanAnomaly) <| .cons ⟨rfl, rfl⟩ <|
        .cons (match_fixed _ h.fill 2 8 _ (by decide) (by decide) h.meanMotion) <|
        .cons (match_field _ h.fill _ _ (by decide) h.revolution) <|
        .cons (match_char _ _ (digitChar_spDigit (Nat.mod_lt _ (by decide)))) .nil)
  rw [Fields.line2, line_eq]
  exact this

theorem body1_lengths (x : Fields) (h : x.InRange) :
    x.body1.map List.length =
      [2, 5, 1, 1, 2, 3, 3, 1, 2, 12, 1, 10, 1, 6, 2, 1, 6, 2, 1, 1, 1, 4] := by
  have hp : (x.piece ++ List.replicate (3 - x.piece.length) ' ').length = 3 := by
    have := h.piece
    simp only [List.length_append, List.length_replicate]; omega
  simp only [Fields.body1, List.map_cons, List.map_nil, hp, List.length_cons, List.length_nil,
    field_length _ _ _ (by decide : 0 < 5) h.catalog, field_length _ _ _ (by decide : 0 < 2) h.launchYear,
    field_length _ _ _ (by decide : 0 < 3) h.launchNumber, field_length _ _ _ (by decide : 0 < 2) h.epochYear,
    fixed_length _ 3 8 _ (by decide) (by decide) h.epochDay, field_length _ _ _ (by decide : 0 < 8) h.ndot,
    field_length _ _ _ (by decide : 0 < 5) h.nddot, field_length _ _ _ (by decide : 0 < 5) h.bstar,
    field_length _ _ _ (by decide : 0 < 4) h.elementSet]

theorem body2_lengths (x : Fields) (h : x.InRange) :
    x.body2.map List.length = [2, 5, 1, 8, 1, 8, 1, 7, 1, 8, 1, 8, 1, 11, 5] := by
  simp only [Fields.body2, List.map_cons, List.map_nil, List.length_cons, List.length_nil,
    field_length _ _ _ (by decide : 0 < 5) h.catalog,
    fixed_length _ 3 4 _ (by decide) (by decide) h.inclination,
    fixed_length _ 3 4 _ (by decide) (by decide) h.raan,
    field_length _ _ _ (by decide : 0 < 7) h.eccentricity,
    fixed_length _ 3 4 _ (by decide) (by decide) h.perigee,
    fixed_length _ 3 4 _ (by decide) (by decide) h.meanAnomaly,
    fixed_length _ 2 8 _ (by decide) (by decide) h.meanMotion,
    field_length _ _ _ (by decide : 0 < 5) h.revolution]

theorem withChecksum_right (cols : List Line) (hlen : cols.flatten.length = 68) :
    ChecksumRight (withChecksum cols) := by
  have h68 : col (withChecksum cols) 68 = digitChar ((cols.flatten.map checksumWeight).sum % 10) := by
    unfold col withChecksum
    rw [List.getD_eq_getElem?_getD, List.getElem?_append_right (by omega), hlen]
    rfl
  have hsum : ((List.range 68).map fun i => checksumWeight (col (withChecksum cols) i)) =
      cols.flatten.map checksumWeight := by
    apply List.ext_getElem
    · rw [List.length_map, List.length_map, List.length_range, hlen]
    · intro i h1 h2
      have hi : i < 68 := by simpa using h1
      simp only [List.getElem_map, List.getElem_range]
      unfold col withChecksum
      rw [List.getD_eq_getElem?_getD, List.getElem?_append_left (by omega),
        List.getElem?_eq_getElem (by omega)]
      rfl
  have hlt : (cols.flatten.map checksumWeight).sum % 10 < 10 := Nat.mod_lt _ (by decide)
  refine ⟨by rw [h68]; exact digitChar_digit hlt, ?_⟩
  rw [h68, hsum]
  exact digitVal_digitChar hlt

theorem line_length (cols : List Line) (hlen : cols.flatten.length = 68) : (withChecksum cols).length = 69 := by
  rw [withChecksum, List.length_append, hlen]; rfl

theorem body1_length (x : Fields) (h : x.InRange) : x.body1.flatten.length = 68 := by
  rw [List.length_flatten, body1_lengths x h]; rfl

theorem body2_length (x : Fields) (h : x.InRange) : x.body2.flatten.length = 68 := by
  rw [List.length_flatten, body2_lengths x h]; rfl

/-- Written lines form an element set, so `TwoLineElements` accepts them. -/
theorem C20_written_accepted (x : Fields) (h : x.InRange) : ElementSet x.line1 x.line2 where
  line1 := (matchLine1_iff _ (line_length _ (body1_length x h))).mp (line1_match x h)
  line2 := (matchLine2_iff _ (line_length _ (body2_length x h))).mp (line2_match x h)
  sum1 := withChecksum_right _ (body1_length x h)
  sum2 := withChecksum_right _ (body2_length x h)

/-! ### Reading -/

theorem slice_line (cols : List Line) (lens : List Nat) (hl : cols.map List.length = lens) (k a b : Nat)
    (hk : k < cols.length) (ha : (lens.take k).sum = a) (hb : a + lens.getD k 0 = b) :
    slice a b (withChecksum cols) = cols[k] := by
  have hk' : k < (cols ++ [[digitChar ((cols.flatten.map checksumWeight).sum % 10)]]).length := by
    rw [List.length_append]; omega
  have := slice_flatten (cols ++ [[digitChar ((cols.flatten.map checksumWeight).sum % 10)]]) k hk' a b
    (by rw [List.take_append_of_le_length (by omega), List.map_take, hl, ha])
    (by
      rw [List.getElem_append_left hk, ← hb, ← hl]
      simp [List.getD_eq_getElem?_getD, hk])
  rw [line_eq, this, List.getElem_append_left hk]

theorem strip_designator (pre piece : List Char) (k : Nat) (hpre : ∃ c t, pre = c :: t ∧ c ≠ ' ')
    (hp : piece ≠ []) (hu : ∀ c ∈ piece, Upper c) :
    strip (pre ++ (piece ++ List.replicate k ' ')) = pre ++ piece := by
  obtain ⟨c, t, rfl, hc⟩ := hpre
  have := strip_blanks 0 k (c :: t ++ piece) (by simp) (by simpa using hc) (by
    intro d hd
    rw [List.getLast?_append_of_ne_nil _ hp] at hd
    have hu' := hu d (List.mem_of_mem_getLast? hd)
    rintro rfl
    exact absurd hu'.1 (by decide))
  simpa using this

theorem field_two (y : Nat) (hy : y < 100) : field '0' 2 y = [digitChar (y / 10), digitChar (y % 10)] := by
  by_cases h : y < 10
  · rw [field, dec_lt h, Nat.div_eq_of_lt h, Nat.mod_eq_of_lt h]; rfl
  · rw [field, dec_ge (by omega), dec_lt (by omega)]; rfl

theorem dec_year (c y : Nat) (hc : c = 19 ∨ c = 20) (hy : y < 100) :
    dec (100 * c + y) = dec c ++ field '0' 2 y := by
  rw [field_two y hy, dec_ge (by omega), dec_ge (n := (100 * c + y) / 10) (by omega)]
  have h1 : (100 * c + y) / 10 / 10 = c := by omega
  have h2 : (100 * c + y) / 10 % 10 = y / 10 := by omega
  have h3 : (100 * c + y) % 10 = y % 10 := by omega
  rw [h1, h2, h3]; simp

theorem designator_read (x : Fields) (h : x.InRange) : getInternationalDesignator x.line1 =
    .ok (dec (fullYear x.launchYear) ++ ['-'] ++ field '0' 3 x.launchNumber ++ x.piece) := by
  have hy : x.launchYear < 100 := h.launchYear
  have s1 : slice 9 11 x.line1 = field '0' 2 x.launchYear :=
    slice_line x.body1 _ (body1_lengths x h) 4 9 11 (by simp [Fields.body1]) rfl rfl
  have s2 : slice 11 14 x.line1 = field '0' 3 x.launchNumber :=
    slice_line x.body1 _ (body1_lengths x h) 5 11 14 (by simp [Fields.body1]) rfl rfl
  have s3 : slice 14 17 x.line1 = x.piece ++ List.replicate (3 - x.piece.length) ' ' :=
    slice_line x.body1 _ (body1_lengths x h) 6 14 17 (by simp [Fields.body1]) rfl rfl
  unfold getInternationalDesignator
  simp only [s1, s2, s3]
  rw [if_pos ⟨field_ne_nil _ _ _, all_isDigit (field_zero_digits _ _)⟩, pyInt_field _ (Or.inr rfl)]
  have hd20 : dec 20 = ['2', '0'] := by rw [dec_ge (by decide), dec_lt (by decide)]; rfl
  have hd19 : dec 19 = ['1', '9'] := by rw [dec_ge (by decide), dec_lt (by decide)]; rfl
  simp only [bind, Except.bind, pure, Except.pure, Except.ok.injEq]
  by_cases hlt : x.launchYear < 57
  · have hcast : (x.launchYear : Int) < 57 := by exact_mod_cast hlt
    rw [if_pos hcast, fullYear, if_pos hlt, show 2000 + x.launchYear = 100 * 20 + x.launchYear by omega,
      dec_year 20 _ (Or.inr rfl) hy, hd20]
    exact strip_designator (['2', '0'] ++ field '0' 2 x.launchYear ++ ['-'] ++ field '0' 3 x.launchNumber)
      x.piece _ ⟨'2', _, rfl, by decide⟩ h.piece_pos h.letters
  · have hcast : ¬ (x.launchYear : Int) < 57 := by exact_mod_cast hlt
    rw [if_neg hcast, fullYear, if_neg hlt, show 1900 + x.launchYear = 100 * 19 + x.launchYear by omega,
      dec_year 19 _ (Or.inl rfl) hy, hd19]
    exact strip_designator (['1', '9'] ++ field '0' 2 x.launchYear ++ ['-'] ++ field '0' 3 x.launchNumber)
      x.piece _ ⟨'1', _, rfl, by decide⟩ h.piece_pos h.letters

/-- C20, full statement: every accessor returns the written value.  Proved here for all of them
except that the second derivative and the drag term are required to be non-negative (see
`C20_negative_false`).  Missing: the epoch accessor, see `C138_read`. -/
theorem C20_round_trip_partial (x : Fields) (h : x.InRange) :
    getCatalogNumber x.line1 = .ok x.catalog ∧
    getClassification x.line1 = .ok x.classification ∧
    getInternationalDesignator x.line1 =
      .ok (dec (fullYear x.launchYear) ++ ['-'] ++ field '0' 3 x.launchNumber ++ x.piece) ∧
    getFirstDerivative x.line1 = .ok (signed x.ndotNegative (x.ndot / 10 ^ 8)) ∧
    (x.nddotNegative = false →
      getSecondDerivative x.line1 = .ok (x.nddot / 10 ^ 5 * power x.nddotExpNegative x.nddotExp)) ∧
    (x.bstarNegative = false →
      getBStar x.line1 = .ok (x.bstar / 10 ^ 5 * power x.bstarExpNegative x.bstarExp)) ∧
    getEphemerisType x.line1 = .ok x.ephemeris ∧
    getElementSetNumber x.line1 = .ok x.elementSet ∧
    getInclination x.line2 = .ok (x.inclination / 10 ^ 4) ∧
    getRaan x.line2 = .ok (x.raan / 10 ^ 4) ∧
    getEccentricity x.line2 = .ok (x.eccentricity / 10 ^ 7) ∧
    getPerigeeArgument x.line2 = .ok (x.perigee / 10 ^ 4) ∧
    getMeanAnomaly x.line2 = .ok (x.meanAnomaly / 10 ^ 4) ∧
    getMeanMotion x.line2 = .ok (x.meanMotion / 10 ^ 8) ∧
    getRevolutionNumber x.line2 = .ok x.revolution := by
  have hz : ('0' : Char) = ' ' ∨ ('0' : Char) = '0' := Or.inr rfl
  have l1 := fun k a b => slice_line x.body1 _ (body1_lengths x h) k a b
  have l2 := fun k a b => slice_line x.body2 _ (body2_lengths x h) k a b
  refine ⟨?_, ?_, designator_read x h, ?_, ?_, ?_, ?_, ?_, ?_, ?_, ?_, ?_, ?_, ?_, ?_⟩
  · have s : slice 2 7 x.line1 = field x.fill 5 x.catalog := l1 1 2 7 (by simp [Fields.body1]) rfl rfl
    rw [getCatalogNumber, s, pyInt_field _ h.fill]
  · have s : slice 7 8 x.line1 = [x.classification] := l1 2 7 8 (by simp [Fields.body1]) rfl rfl
    have : x.line1[7]? = some x.classification := by
      have := congrArg (·[0]?) s
      simpa [slice, List.getElem?_take, List.getElem?_drop] using this
    rw [getClassification, this]
  · have s : slice 33 43 x.line1 = signCol x.ndotNegative :: '.' :: field '0' 8 x.ndot :=
      l1 11 33 43 (by simp [Fields.body1]) rfl rfl
    rw [getFirstDerivative, s, pyFloat_signed _ _ _ (by decide) h.ndot]
  · intro hn
    have s : slice 44 50 x.line1 = signCol x.nddotNegative :: field '0' 5 x.nddot :=
      l1 13 44 50 (by simp [Fields.body1]) rfl rfl
    have s' : slice 50 52 x.line1 = [expSign x.nddotExpNegative, digitChar x.nddotExp] :=
      l1 14 50 52 (by simp [Fields.body1]) rfl rfl
    rw [getSecondDerivative, s, s', hn, pseudoFloat_field _ _ _ h.nddot h.nddotExp]
  · intro hn
    have s : slice 53 59 x.line1 = signCol x.bstarNegative :: field '0' 5 x.bstar :=
      l1 16 53 59 (by simp [Fields.body1]) rfl rfl
    have s' : slice 59 61 x.line1 = [expSign x.bstarExpNegative, digitChar x.bstarExp] :=
      l1 17 59 61 (by simp [Fields.body1]) rfl rfl
    rw [getBStar, s, s', hn, pseudoFloat_field _ _ _ h.bstar h.bstarExp]
  · have s : slice 62 63 x.line1 = [digitChar x.ephemeris] := l1 19 62 63 (by simp [Fields.body1]) rfl rfl
    have hd := digitChar_digit h.ephemeris
    have := pyInt_of_digits 0 [digitChar x.ephemeris] (by simp) (by simpa using hd)
    rw [getEphemerisType, s]
    simpa [digitsVal, digitVal_digitChar h.ephemeris] using this
  · have s : slice 64 68 x.line1 = field x.fill 4 x.elementSet := l1 21 64 68 (by simp [Fields.body1]) rfl rfl
    rw [getElementSetNumber, s, pyInt_field _ h.fill]
  · have s : slice 8 16 x.line2 = fixed x.fill 3 4 x.inclination := l2 3 8 16 (by simp [Fields.body2]) rfl rfl
    rw [getInclination, s, pyFloat_fixed _ h.fill _ _ _ (by decide)]
  · have s : slice 17 25 x.line2 = fixed x.fill 3 4 x.raan := l2 5 17 25 (by simp [Fields.body2]) rfl rfl
    rw [getRaan, s, pyFloat_fixed _ h.fill _ _ _ (by decide)]
  · have s : slice 26 33 x.line2 = field '0' 7 x.eccentricity := l2 7 26 33 (by simp [Fields.body2]) rfl rfl
    have hs := strip_digits (field '0' 7 x.eccentricity) (field_ne_nil _ _ _) (field_zero_digits _ _) 0
    rw [List.replicate_zero, List.nil_append] at hs
    have hf := pyFloat_zero_point (field '0' 7 x.eccentricity) (field_ne_nil _ _ _) (field_zero_digits _ _)
    rw [digitsVal_field, field_length _ _ _ (by decide) h.eccentricity] at hf
    rw [getEccentricity, s, hs, hf]
  · have s : slice 34 42 x.line2 = fixed x.fill 3 4 x.perigee := l2 9 34 42 (by simp [Fields.body2]) rfl rfl
    rw [getPerigeeArgument, s, pyFloat_fixed _ h.fill _ _ _ (by decide)]
  · have s : slice 43 51 x.line2 = fixed x.fill 3 4 x.meanAnomaly := l2 11 43 51 (by simp [Fields.body2]) rfl rfl
    rw [getMeanAnomaly, s, pyFloat_fixed _ h.fill _ _ _ (by decide)]
  · have s : slice 52 63 x.line2 = fixed x.fill 2 8 x.meanMotion := l2 13 52 63 (by simp [Fields.body2]) rfl rfl
    rw [getMeanMotion, s, pyFloat_fixed _ h.fill _ _ _ (by decide)]
  · have s : slice 63 68 x.line2 = field x.fill 5 x.revolution := l2 14 63 68 (by simp [Fields.body2]) rfl rfl
    rw [getRevolutionNumber, s, pyInt_field _ h.fill]

/-- Reading a negative drag term or second derivative raises, for every element set written with
one. -/
theorem C20_negative_false (x : Fields) (h : x.InRange) :
    (x.bstarNegative = true → getBStar x.line1 = .error .valueError) ∧
    (x.nddotNegative = true → getSecondDerivative x.line1 = .error .valueError) := by
  have l1 := fun k a b => slice_line x.body1 _ (body1_lengths x h) k a b
  have hlast : ∀ w n, ∀ c ∈ (field '0' w n).getLast?, c ≠ ' ' := fun w n c hc =>
    digit_ne (field_zero_digits w n c (List.mem_of_mem_getLast? hc)) (by decide)
  constructor
  · intro hn
    have s : slice 53 59 x.line1 = signCol x.bstarNegative :: field '0' 5 x.bstar :=
      l1 16 53 59 (by simp [Fields.body1]) rfl rfl
    rw [getBStar, s, hn]
    exact pseudoFloat_negative _ _ (field_ne_nil _ _ _) (hlast _ _)
  · intro hn
    have s : slice 44 50 x.line1 = signCol x.nddotNegative :: field '0' 5 x.nddot :=
      l1 13 44 50 (by simp [Fields.body1]) rfl rfl
    rw [getSecondDerivative, s, hn]
    exact pseudoFloat_negative _ _ (field_ne_nil _ _ _) (hlast _ _)

/-- The element set of the documentation as fields. -/
def issFields : Fields where
  fill := ' '
  catalog := 25544
  classification := 'U'
  launchYear := 98
  launchNumber := 67
  piece := ['A']
  epochYear := 21
  epochDay := 15630527927
  ndotNegative := false
  ndot := 3432
  nddotNegative := false
  nddot := 0
  nddotExpNegative := true
  nddotExp := 0
  bstarNegative := false
  bstar := 70541
  bstarExpNegative := true
  bstarExp := 4
  ephemeris := 0
  elementSet := 999
  inclination := 516455
  raan := 414969
  eccentricity := 3508
  perigee := 680432
  meanAnomaly := 783395
  meanMotion := 1548957534
  revolution := 28675

theorem issFields_inRange : issFields.InRange where
  fill := Or.inl rfl
  catalog := by decide
  classification := ⟨by decide, by decide⟩
  launchYear := by decide
  launchNumber := by decide
  piece := by decide
  piece_pos := by decide
  letters := by intro c hc; rw [List.mem_singleton.mp hc]; exact ⟨by decide, by decide⟩
  epochYear := by decide
  epochDay := by decide
  ndot := by decide
  nddot := by decide
  nddotExp := by decide
  bstar := by decide
  bstarExp := by decide
  ephemeris := by decide
  elementSet := by decide
  inclination := by decide
  raan := by decide
  eccentricity := by decide
  perigee := by decide
  meanAnomaly := by decide
  meanMotion := by decide
  revolution := by decide

/-- The writer gives exactly the published lines. -/
example : issFields.line1 = iss1 ∧ issFields.line2 = iss2 := by decide +kernel
example := C20_round_trip_partial issFields issFields_inRange

/-! ## C21 -/

/-- All accessors succeed. -/
def Readable (l1 l2 : Line) : Prop :=
  (∃ v, getCatalogNumber l1 = .ok v) ∧ (∃ v, getClassification l1 = .ok v) ∧
  (∃ v, getInternationalDesignator l1 = .ok v) ∧ (∃ v, getFirstDerivative l1 = .ok v) ∧
  (∃ v, getSecondDerivative l1 = .ok v) ∧ (∃ v, getBStar l1 = .ok v) ∧
  (∃ v, getEphemerisType l1 = .ok v) ∧ (∃ v, getElementSetNumber l1 = .ok v) ∧
  (∃ v, getInclination l2 = .ok v) ∧ (∃ v, getRaan l2 = .ok v) ∧ (∃ v, getEccentricity l2 = .ok v) ∧
  (∃ v, getPerigeeArgument l2 = .ok v) ∧ (∃ v, getMeanAnomaly l2 = .ok v) ∧
  (∃ v, getMeanMotion l2 = .ok v) ∧ (∃ v, getRevolutionNumber l2 = .ok v)

/-- Accepted element sets that cannot be read: a negative drag term, and a catalog number with a
letter. -/
theorem C21_readable_false :
    (∃ l1 l2, ElementSet l1 l2 ∧ getBStar l1 = .error .valueError) ∧
    (∃ l1 l2, ElementSet l1 l2 ∧ getCatalogNumber l1 = .error .valueError) := by
  constructor
  · refine ⟨_, _, C20_written_accepted { issFields with bstarNegative := true } ?_,
      (C20_negative_false { issFields with bstarNegative := true } ?_).1 rfl⟩ <;>
      exact { issFields_inRange with }
  · refine ⟨"1 A5544U 98067A   21156.30527927  .00003432  00000-0  70541-4 0  9991".toList,
      "2 A5544  51.6455  41.4969 0003508  68.0432  78.3395 15.48957534286752".toList, ?_, ?_⟩
    · rw [← checkPair_iff]; decide +kernel
    · decide +kernel

/-- C21, full statement: every accepted element set is readable.  It is false (above); proved for
every element set in the standard layout with non-negative drag term and second derivative.
Missing: accepted lines with blanks inside numbers, letters in the catalog number or plus signs. -/
theorem C21_readable_partial (x : Fields) (h : x.InRange) (hn : x.nddotNegative = false)
    (hb : x.bstarNegative = false) : Readable x.line1 x.line2 := by
  obtain ⟨a, b, c, d, e, f, g, i, j, k, l, m, n, o, p⟩ := C20_round_trip_partial x h
  exact ⟨⟨_, a⟩, ⟨_, b⟩, ⟨_, c⟩, ⟨_, d⟩, ⟨_, e hn⟩, ⟨_, f hb⟩, ⟨_, g⟩, ⟨_, i⟩, ⟨_, j⟩, ⟨_, k⟩, ⟨_, l⟩,
    ⟨_, m⟩, ⟨_, n⟩, ⟨_, o⟩, ⟨_, p⟩⟩

example := C21_readable_partial issFields issFields_inRange rfl rfl

end Tatc.Props
