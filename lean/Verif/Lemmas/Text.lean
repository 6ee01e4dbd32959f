import Verif.Model.Text
import Mathlib.Tactic.Linarith
import Mathlib.Tactic.IntervalCases
import Mathlib.Tactic.Ring

/-! Lemmas about text and numerals. -/

namespace Tatc.Text

theorem isDigit_iff (c : Char) : isDigit c = true ↔ '0' ≤ c ∧ c ≤ '9' := by
  simp [isDigit]

theorem digit_ne {c d : Char} (h : '0' ≤ c ∧ c ≤ '9') (hd : ¬ ('0' ≤ d ∧ d ≤ '9')) : c ≠ d := by
  rintro rfl; exact hd h

theorem splitSign_digit (c : Char) (t : List Char) (h : '0' ≤ c ∧ c ≤ '9') :
    splitSign (c :: t) = (false, c :: t) := by
  have h1 : c ≠ '-' := digit_ne h (by decide)
  have h2 : c ≠ '+' := digit_ne h (by decide)
  unfold splitSign
  split
  · rename_i h'; cases h'; exact absurd rfl h1
  · rename_i h'; cases h'; exact absurd rfl h2
  · rfl

theorem strip_of_ends (s : List Char) (h1 : ∀ c ∈ s.head?, c ≠ ' ') (h2 : ∀ c ∈ s.getLast?, c ≠ ' ') :
    strip s = s := by
  unfold strip
  have e1 : s.dropWhile (· = ' ') = s := by
    cases s with
    | nil => rfl
    | cons c t =>
      have : c ≠ ' ' := h1 c (by simp)
      simp [this]
  rw [e1]
  rcases List.eq_nil_or_concat s with rfl | ⟨t, c, rfl⟩
  · rfl
  · have : c ≠ ' ' := h2 c (by simp)
    rw [List.concat_eq_append, List.rdropWhile_concat]
    simp [this]

/-- `int` of a single digit. -/
theorem pyInt_digit (c : Char) (h : '0' ≤ c ∧ c ≤ '9') : pyInt [c] = .ok ((c.toNat - 48 : Nat) : Int) := by
  have hb : c ≠ ' ' := digit_ne h (by decide)
  unfold pyInt
  rw [strip_of_ends [c] (by simpa using hb) (by simpa using hb), splitSign_digit c [] h]
  have : isDigit c = true := (isDigit_iff c).mpr h
  simp [this, digitsVal, digitVal]

/-! ### Decimal numerals -/

theorem digitChar_digit {d : Nat} (h : d < 10) : '0' ≤ digitChar d ∧ digitChar d ≤ '9' := by
  interval_cases d <;> decide

theorem digitVal_digitChar {d : Nat} (h : d < 10) : digitVal (digitChar d) = d := by
  interval_cases d <;> decide

theorem digitChar_inj {d e : Nat} (hd : d < 10) (he : e < 10) (h : digitChar d = digitChar e) : d = e := by
  rw [← digitVal_digitChar hd, h, digitVal_digitChar he]

theorem digitsVal_append (a b : List Char) :
    digitsVal (a ++ b) = digitsVal a * 10 ^ b.length + digitsVal b := by
  induction b using List.reverseRecOn with
  | nil => simp [digitsVal]
  | append_singleton b c ih =>
    have e : ∀ l : List Char, digitsVal (l ++ [c]) = digitsVal l * 10 + digitVal c := by
      intro l; simp [digitsVal]
    rw [← List.append_assoc, e, e, ih]
    simp only [List.length_append, List.length_singleton, pow_succ]
    ring

theorem dec_lt {n : Nat} (h : n < 10) : dec n = [digitChar n] := by
  rw [dec, if_pos h]

theorem dec_ge {n : Nat} (h : 10 ≤ n) : dec n = dec (n / 10) ++ [digitChar (n % 10)] := by
  rw [dec, if_neg (by omega)]

theorem dec_ne_nil (n : Nat) : dec n ≠ [] := by
  rw [dec]; split_ifs <;> simp

theorem dec_digits (n : Nat) : ∀ c ∈ dec n, '0' ≤ c ∧ c ≤ '9' := by
  induction n using Nat.strong_induction_on with
  | _ n ih =>
    by_cases h : n < 10
    · rw [dec_lt h]; simpa using digitChar_digit h
    · rw [dec_ge (by omega)]
      intro c hc
      rcases List.mem_append.mp hc with hc | hc
      · exact ih (n / 10) (by omega) c hc
      · rw [List.mem_singleton.mp hc]; exact digitChar_digit (Nat.mod_lt _ (by decide))

theorem digitsVal_dec (n : Nat) : digitsVal (dec n) = n := by
  induction n using Nat.strong_induction_on with
  | _ n ih =>
    by_cases h : n < 10
    · rw [dec_lt h]; simp [digitsVal, digitVal_digitChar h]
    · rw [dec_ge (by omega), digitsVal_append, ih (n / 10) (by omega)]
      simp [digitsVal, digitVal_digitChar (Nat.mod_lt n (by decide : 0 < 10))]
      omega

theorem dec_length_le (w n : Nat) (hw : 0 < w) (h : n < 10 ^ w) : (dec n).length ≤ w := by
  induction w generalizing n with
  | zero => omega
  | succ w ih =>
    by_cases h10 : n < 10
    · rw [dec_lt h10]; simp
    · rw [dec_ge (by omega)]
      have hw' : 0 < w := by
        rcases Nat.eq_zero_or_pos w with rfl | h'
        · simp at h; omega
        · exact h'
      have := ih (n / 10) hw' (by rw [pow_succ] at h; omega)
      simp only [List.length_append, List.length_singleton]
      omega

theorem dec_length_lower (n : Nat) : n < 10 ^ (dec n).length := by
  have key : ∀ l : List Char, (∀ c ∈ l, '0' ≤ c ∧ c ≤ '9') → digitsVal l < 10 ^ l.length := by
    intro l
    induction l using List.reverseRecOn with
    | nil => intro _; simp [digitsVal]
    | append_singleton l c ih =>
      intro h
      have h1 := ih (fun x hx => h x (by simp [hx]))
      have h2 : c.toNat ≤ '9'.toNat := (h c (by simp)).2
      have h3 : digitVal c ≤ 9 := by
        unfold digitVal; simp at h2; omega
      rw [digitsVal_append]
      simp only [List.length_append, List.length_singleton, pow_succ, digitsVal, List.foldl] at *
      omega
  have := key (dec n) (dec_digits n)
  rwa [digitsVal_dec] at this

theorem digitsVal_zeros (k : Nat) : digitsVal (List.replicate k '0') = 0 := by
  induction k with
  | zero => rfl
  | succ k ih =>
    rw [List.replicate_succ', digitsVal_append, ih]
    decide

theorem all_isDigit {l : List Char} (h : ∀ c ∈ l, '0' ≤ c ∧ c ≤ '9') : l.all isDigit = true := by
  rw [List.all_eq_true]
  intro c hc
  exact (isDigit_iff c).mpr (h c hc)

/-- Blanks on both sides are removed. -/
theorem strip_blanks (i j : Nat) (m : List Char) (hm : m ≠ [])
    (h1 : ∀ c ∈ m.head?, c ≠ ' ') (h2 : ∀ c ∈ m.getLast?, c ≠ ' ') :
    strip (List.replicate i ' ' ++ (m ++ List.replicate j ' ')) = m := by
  unfold strip
  have e1 : (List.replicate i ' ' ++ (m ++ List.replicate j ' ')).dropWhile (· = ' ') =
      m ++ List.replicate j ' ' := by
    induction i with
    | zero =>
      cases m with
      | nil => exact absurd rfl hm
      | cons c t =>
        have : c ≠ ' ' := h1 c (by simp)
        simp [this]
    | succ i ih => rw [List.replicate_succ]; simpa using ih
  rw [e1]
  induction j with
  | zero =>
    simp only [List.replicate_zero, List.append_nil]
    rcases List.eq_nil_or_concat m with rfl | ⟨t, c, rfl⟩
    · rfl
    · have : c ≠ ' ' := h2 c (by simp)
      rw [List.concat_eq_append, List.rdropWhile_concat]
      simp [this]
  | succ j ih =>
    rw [List.replicate_succ', ← List.append_assoc, List.rdropWhile_concat]
    simpa using ih (by
      have := e1
      clear ih
      induction i with
      | zero =>
        cases m with
        | nil => exact absurd rfl hm
        | cons c t =>
          have : c ≠ ' ' := h1 c (by simp)
          simp [this]
      | succ i ih' =>
        have h := ih' (by
          cases m with
          | nil => exact absurd rfl hm
          | cons c t =>
            have hc : c ≠ ' ' := h1 c (by simp)
            have : ∀ k, (List.replicate k ' ' ++ (c :: t ++ List.replicate (j + 1) ' ')).dropWhile (· = ' ') =
                c :: t ++ List.replicate (j + 1) ' ' := by
              intro k
              induction k with
              | zero => simp [hc]
              | succ k ih => rw [List.replicate_succ]; simpa using ih
            exact this i) this
        rw [List.replicate_succ]
        simpa using h)

/-- `int` of a numeral with blanks in front. -/
theorem pyInt_of_digits (i : Nat) (m : List Char) (hm : m ≠ []) (hd : ∀ c ∈ m, '0' ≤ c ∧ c ≤ '9') :
    pyInt (List.replicate i ' ' ++ m) = .ok (digitsVal m : Int) := by
  have hb : ∀ c ∈ m, c ≠ ' ' := fun c hc => digit_ne (hd c hc) (by decide)
  have hs := strip_blanks i 0 m hm (fun c hc => hb c (List.mem_of_mem_head? hc))
    (fun c hc => hb c (List.mem_of_mem_getLast? hc))
  simp only [List.replicate_zero, List.append_nil] at hs
  unfold pyInt
  rw [hs]
  cases m with
  | nil => exact absurd rfl hm
  | cons c t =>
    rw [splitSign_digit c t (hd c (by simp))]
    simp only [all_isDigit hd, and_true]
    simp

theorem takeWhile_digits (ip rest : List Char) (h : ∀ c ∈ ip, '0' ≤ c ∧ c ≤ '9') :
    (ip ++ '.' :: rest).takeWhile isDigit = ip ∧ (ip ++ '.' :: rest).dropWhile isDigit = '.' :: rest := by
  induction ip with
  | nil => exact ⟨by rfl, by rfl⟩
  | cons c t ih =>
    have hc : isDigit c = true := (isDigit_iff c).mpr (h c (by simp))
    have := ih (fun x hx => h x (by simp [hx]))
    simp [hc, this.1, this.2]

theorem unsigned_point (ip f : List Char) (hi : ∀ c ∈ ip, '0' ≤ c ∧ c ≤ '9')
    (hf : ∀ c ∈ f, '0' ≤ c ∧ c ≤ '9') (hne : f ≠ []) :
    unsigned (ip ++ '.' :: f) = some ((digitsVal ip : ℚ) + (digitsVal f : ℚ) / (10 : ℚ) ^ f.length) := by
  obtain ⟨h1, h2⟩ := takeWhile_digits ip f hi
  unfold unsigned
  rw [h1, h2]
  simp [hne, all_isDigit hf]

/-- `float` of a decimal fraction after blanks. -/
theorem pyFloat_point (i : Nat) (ip f : List Char) (hi : ∀ c ∈ ip, '0' ≤ c ∧ c ≤ '9')
    (hf : ∀ c ∈ f, '0' ≤ c ∧ c ≤ '9') (hne : f ≠ []) :
    pyFloat (List.replicate i ' ' ++ (ip ++ '.' :: f)) =
      .ok ((digitsVal ip : ℚ) + (digitsVal f : ℚ) / (10 : ℚ) ^ f.length) := by
  have hlast : ∀ c ∈ (ip ++ '.' :: f).getLast?, c ≠ ' ' := by
    intro c hc
    rw [List.getLast?_append_of_ne_nil _ (by simp), List.getLast?_cons] at hc
    have : c ∈ f := by
      rw [List.getLast?_eq_getLast_of_ne_nil hne] at hc
      simp at hc
      rw [← hc]; exact List.getLast_mem hne
    exact digit_ne (hf c this) (by decide)
  have hhead : ∀ c ∈ (ip ++ '.' :: f).head?, c ≠ ' ' ∧ c ≠ '-' ∧ c ≠ '+' := by
    intro c hc
    cases ip with
    | nil => simp at hc; subst hc; decide
    | cons d t =>
      simp at hc; subst hc
      have := hi d (by simp)
      exact ⟨digit_ne this (by decide), digit_ne this (by decide), digit_ne this (by decide)⟩
  have hs := strip_blanks i 0 (ip ++ '.' :: f) (by simp) (fun c hc => (hhead c hc).1) hlast
  rw [List.replicate_zero, List.append_nil] at hs
  have hsp : splitSign (ip ++ '.' :: f) = (false, ip ++ '.' :: f) := by
    generalize hg : ip ++ '.' :: f = g at hhead
    unfold splitSign
    split
    · exact absurd rfl (hhead '-' (by simp)).2.1
    · exact absurd rfl (hhead '+' (by simp)).2.2
    · rfl
  unfold pyFloat
  rw [hs, hsp]
  simp only [unsigned_point ip f hi hf hne]
  rfl

/-- `float` of a negative decimal fraction. -/
theorem pyFloat_neg_point (ip f : List Char) (hi : ∀ c ∈ ip, '0' ≤ c ∧ c ≤ '9')
    (hf : ∀ c ∈ f, '0' ≤ c ∧ c ≤ '9') (hne : f ≠ []) :
    pyFloat ('-' :: (ip ++ '.' :: f)) =
      .ok (-((digitsVal ip : ℚ) + (digitsVal f : ℚ) / (10 : ℚ) ^ f.length)) := by
  have hlast : ∀ c ∈ ('-' :: (ip ++ '.' :: f)).getLast?, c ≠ ' ' := by
    intro c hc
    rw [List.getLast?_cons_of_ne_nil (by simp), List.getLast?_append_of_ne_nil _ (by simp),
      List.getLast?_cons_of_ne_nil hne] at hc
    exact digit_ne (hf c (List.mem_of_mem_getLast? hc)) (by decide)
  have hs := strip_of_ends ('-' :: (ip ++ '.' :: f)) (by simp) hlast
  unfold pyFloat
  rw [hs]
  have hsp : splitSign ('-' :: (ip ++ '.' :: f)) = (true, ip ++ '.' :: f) := rfl
  rw [hsp]
  simp only [unsigned_point ip f hi hf hne]
  rfl

/-- Slicing a concatenation of columns at a column's bounds. -/
theorem slice_flatten (cols : List (List Char)) (k : Nat) (hk : k < cols.length) (a b : Nat)
    (ha : ((cols.take k).map List.length).sum = a) (hb : a + cols[k].length = b) :
    slice a b cols.flatten = cols[k] := by
  have e : cols.flatten = (cols.take k).flatten ++ (cols[k] ++ (cols.drop (k + 1)).flatten) := by
    have h : cols = cols.take k ++ (cols[k] :: cols.drop (k + 1)) := by
      rw [← List.drop_eq_getElem_cons hk, List.take_append_drop]
    calc cols.flatten = (cols.take k ++ (cols[k] :: cols.drop (k + 1))).flatten := by rw [← h]
      _ = _ := by rw [List.flatten_append, List.flatten_cons]
  have hl : (cols.take k).flatten.length = a := by rw [List.length_flatten, ha]
  unfold slice
  rw [e, ← hl, List.drop_left]
  have : b - (cols.take k).flatten.length = cols[k].length := by omega
  rw [this, List.take_left]

end Tatc.Text
