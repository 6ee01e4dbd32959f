import Verif.Model.Tle
import Verif.Spec.Tle
import Verif.Lemmas.Text
import Verif.Lemmas.ExceptList
import Mathlib.Tactic.IntervalCases
import Mathlib.Tactic.FinCases
import Mathlib.Tactic.Linarith

/-!
# C18, C19: validation of element sets
-/

namespace Tatc.Props
open Tatc.Text Tatc.Tle Tatc.Spec

theorem spDigit_iff (c : Char) : spDigit c = true ↔ BlankOrDigit c := by
  simp [spDigit, BlankOrDigit, isDigit]

theorem upper_iff (c : Char) : upper c = true ↔ Upper c := by
  simp [upper, Upper]

theorem catalogFirst_iff (c : Char) : Tle.catalogFirst c = true ↔
    BlankOrDigit c ∨ (Upper c ∧ c ≠ 'I' ∧ c ≠ 'O') := by
  simp [Tle.catalogFirst, BlankOrDigit, Upper, upper, isDigit, and_assoc]

theorem matchSeq_iff (ps : List (Char → Bool)) (s : Line) (h : ps.length = s.length) :
    matchSeq ps s = true ↔ ∀ i, i < s.length → (ps.getD i (fun _ => false)) (col s i) = true := by
  induction ps generalizing s with
  | nil =>
    have : s = [] := by rw [← List.length_eq_zero_iff, ← h]; rfl
    subst this
    simp [matchSeq]
  | cons p ps ih =>
    cases s with
    | nil => simp at h
    | cons c cs =>
      have h' : ps.length = cs.length := by simpa using h
      rw [matchSeq, Bool.and_eq_true, ih cs h']
      constructor
      · rintro ⟨h1, h2⟩ i hi
        cases i with
        | zero => simpa [col] using h1
        | succ i => simpa [col] using h2 i (by simpa using hi)
      · intro hall
        refine ⟨by simpa [col] using hall 0 (by simp), ?_⟩
        intro i hi
        simpa [col] using hall (i + 1) (by simpa using hi)

/-- The columns of line 1 that do not depend on the alternative. -/
structure Common (s : Line) : Prop where
  number : col s 0 = '1'
  blanks : ∀ i ∈ [1, 8, 17, 32, 43, 52, 61, 63], col s i = ' '
  catalogFirst : BlankOrDigit (col s 2) ∨ (Upper (col s 2) ∧ col s 2 ≠ 'I' ∧ col s 2 ≠ 'O')
  digits : ∀ i ∈ [3, 4, 5, 6, 9, 10, 11, 12, 13, 18, 19, 20, 21, 22, 24, 25, 26, 27, 28, 29, 30, 31,
    36, 37, 38, 39, 40, 41, 42, 45, 46, 47, 48, 49, 51, 54, 55, 56, 57, 58, 60, 62, 64, 65, 66, 67, 68],
    BlankOrDigit (col s i)
  classification : Upper (col s 7)
  piece : ∀ i ∈ [14, 15, 16], col s i = ' ' ∨ Upper (col s i)
  point : col s 23 = '.'
  signs : ∀ i ∈ [44, 53], col s i = ' ' ∨ col s i = '+' ∨ col s i = '-'
  exponents : ∀ i ∈ [50, 59], col s i = '+' ∨ col s i = '-'

theorem pattern1_iff (pat : List (Char → Bool)) (s : Line)
    (h0 : pat.getD 0 (fun _ => false) = lit '1')
    (hb : ∀ i ∈ [1, 8, 17, 32, 43, 52, 61, 63], pat.getD i (fun _ => false) = lit ' ')
    (h2 : pat.getD 2 (fun _ => false) = Tle.catalogFirst)
    (hd : ∀ i ∈ [3, 4, 5, 6, 9, 10, 11, 12, 13, 18, 19, 20, 21, 22, 24, 25, 26, 27, 28, 29, 30, 31,
    36, 37, 38, 39, 40, 41, 42, 45, 46, 47, 48, 49, 51, 54, 55, 56, 57, 58, 60, 62, 64, 65, 66, 67, 68],
      pat.getD i (fun _ => false) = spDigit)
    (h7 : pat.getD 7 (fun _ => false) = upper)
    (hp : ∀ i ∈ [14, 15, 16], pat.getD i (fun _ => false) = spUpper)
    (h23 : pat.getD 23 (fun _ => false) = lit '.')
    (hs : ∀ i ∈ [44, 53], pat.getD i (fun _ => false) = spSign)
    (he : ∀ i ∈ [50, 59], pat.getD i (fun _ => false) = sign) :
    (∀ i, i < 69 → (pat.getD i (fun _ => false)) (col s i) = true) ↔
      Common s ∧ pat.getD 33 (fun _ => false) (col s 33) = true ∧
        pat.getD 34 (fun _ => false) (col s 34) = true ∧
        pat.getD 35 (fun _ => false) (col s 35) = true := by
  have hlt : ∀ l : List Nat, (∀ i ∈ l, i < 69) → ∀ i ∈ l, i < 69 := fun _ h => h
  constructor
  · intro h
    refine ⟨⟨?_, ?_, ?_, ?_, ?_, ?_, ?_, ?_, ?_⟩, h 33 (by decide), h 34 (by decide), h 35 (by decide)⟩
    · have := h 0 (by decide); rw [h0] at this; simpa [lit] using this
    · intro i hi
      have := h i (hlt _ (by decide) i hi); rw [hb i hi] at this; simpa [lit] using this
    · have := h 2 (by decide); rw [h2, catalogFirst_iff] at this; exact this
    · intro i hi
      have := h i (hlt _ (by decide) i hi); rw [hd i hi, spDigit_iff] at this; exact this
    · have := h 7 (by decide); rw [h7, upper_iff] at this; exact this
    · intro i hi
      have := h i (hlt _ (by decide) i hi); rw [hp i hi] at this
      simpa [spUpper, upper_iff] using this
    · have := h 23 (by decide); rw [h23] at this; simpa [lit] using this
    · intro i hi
      have := h i (hlt _ (by decide) i hi); rw [hs i hi] at this
      simpa [spSign, or_assoc] using this
    · intro i hi
      have := h i (hlt _ (by decide) i hi); rw [he i hi] at this
      simpa [sign] using this
  · rintro ⟨c, h33, h34, h35⟩ i hi
    have hcases : ∀ i < 69, i = 0 ∨ i ∈ [1, 8, 17, 32, 43, 52, 61, 63] ∨ i = 2 ∨
        i ∈ [3, 4, 5, 6, 9, 10, 11, 12, 13, 18, 19, 20, 21, 22, 24, 25, 26, 27, 28, 29, 30, 31,
    36, 37, 38, 39, 40, 41, 42, 45, 46, 47, 48, 49, 51, 54, 55, 56, 57, 58, 60, 62, 64, 65, 66, 67, 68] ∨
        i = 7 ∨ i ∈ [14, 15, 16] ∨ i = 23 ∨ i ∈ [44, 53] ∨ i ∈ [50, 59] ∨ i = 33 ∨ i = 34 ∨ i = 35 := by
      decide +kernel
    rcases hcases i hi with rfl | h | rfl | h | rfl | h | rfl | h | h | rfl | rfl | rfl
    · rw [h0]; simpa [lit] using c.number
    · rw [hb i h]; simpa [lit] using c.blanks i h
    · rw [h2, catalogFirst_iff]; exact c.catalogFirst
    · rw [hd i h, spDigit_iff]; exact c.digits i h
    · rw [h7, upper_iff]; exact c.classification
    · rw [hp i h]; simpa [spUpper, upper_iff] using c.piece i h
    · rw [h23]; simpa [lit] using c.point
    · rw [hs i h]; simpa [spSign, or_assoc] using c.signs i h
    · rw [he i h]; simpa [sign] using c.exponents i h
    · exact h33
    · exact h34
    · exact h35

theorem matchLine1_iff (s : Line) (hlen : s.length = 69) :
    matchLine1 s = true ↔ Line1Syntax s := by
  unfold matchLine1
  rw [Bool.or_eq_true, matchSeq_iff _ s (by rw [hlen]; rfl), matchSeq_iff _ s (by rw [hlen]; rfl), hlen,
    pattern1_iff, pattern1_iff]
  · have a33 : (line1Head ++ line1AltA ++ line1Tail).getD 33 (fun _ => false) = spZeroSign := rfl
    have a34 : (line1Head ++ line1AltA ++ line1Tail).getD 34 (fun _ => false) = lit '.' := rfl
    have a35 : (line1Head ++ line1AltA ++ line1Tail).getD 35 (fun _ => false) = spDigit := rfl
    have b33 : (line1Head ++ line1AltB ++ line1Tail).getD 33 (fun _ => false) = lit ' ' := rfl
    have b34 : (line1Head ++ line1AltB ++ line1Tail).getD 34 (fun _ => false) = spSign := rfl
    have b35 : (line1Head ++ line1AltB ++ line1Tail).getD 35 (fun _ => false) = lit '.' := rfl
    rw [a33, a34, a35, b33, b34, b35, spDigit_iff]
    constructor
    · rintro (⟨c, h1, h2, h3⟩ | ⟨c, h1, h2, h3⟩)
      · refine ⟨hlen, c.number, c.blanks, c.catalogFirst, c.digits, c.classification, c.piece, c.point,
          c.signs, c.exponents, Or.inl ⟨?_, ?_, h3⟩⟩
        · simpa [spZeroSign, or_assoc] using h1
        · simpa [lit] using h2
      · refine ⟨hlen, c.number, c.blanks, c.catalogFirst, c.digits, c.classification, c.piece, c.point,
          c.signs, c.exponents, Or.inr ⟨?_, ?_, ?_⟩⟩
        · simpa [lit] using h1
        · simpa [spSign, or_assoc] using h2
        · simpa [lit] using h3
    · intro h
      have c : Common s := ⟨h.number, h.blanks, h.catalogFirst, h.digits, h.classification, h.piece,
        h.point, h.signs, h.exponents⟩
      rcases h.ndot with ⟨h1, h2, h3⟩ | ⟨h1, h2, h3⟩
      · left
        exact ⟨c, by simpa [spZeroSign, or_assoc] using h1, by simpa [lit] using h2, h3⟩
      · right
        exact ⟨c, by simpa [lit] using h1, by simpa [spSign, or_assoc] using h2, by simpa [lit] using h3⟩
  all_goals first | rfl | (intro i hi; fin_cases hi <;> rfl)

theorem matchLine2_iff (s : Line) (hlen : s.length = 69) :
    matchLine2 s = true ↔ Line2Syntax s := by
  unfold matchLine2
  rw [matchSeq_iff _ s (by rw [hlen]; rfl), hlen]
  have p0 : line2Pattern.getD 0 (fun _ => false) = lit '2' := rfl
  have pb : ∀ i ∈ [1, 7, 16, 25, 33, 42, 51], line2Pattern.getD i (fun _ => false) = lit ' ' := by
    intro i hi; fin_cases hi <;> rfl
  have p2 : line2Pattern.getD 2 (fun _ => false) = Tle.catalogFirst := rfl
  have pp : ∀ i ∈ [11, 20, 37, 46, 54], line2Pattern.getD i (fun _ => false) = lit '.' := by
    intro i hi; fin_cases hi <;> rfl
  have pd : ∀ i, 3 ≤ i → i < 69 → i ∉ [7, 16, 25, 33, 42, 51, 11, 20, 37, 46, 54] →
      line2Pattern.getD i (fun _ => false) = spDigit := by
    intro i h3 h69 hn
    interval_cases i <;> first | rfl | (exfalso; revert hn; decide)
  have hlt : ∀ l : List Nat, (∀ i ∈ l, i < 69) → ∀ i ∈ l, i < 69 := fun _ h => h
  constructor
  · intro h
    refine ⟨hlen, ?_, ?_, ?_, ?_, ?_⟩
    · have := h 0 (by decide); rw [p0] at this; simpa [lit] using this
    · intro i hi
      have := h i (hlt _ (by decide) i hi); rw [pb i hi] at this; simpa [lit] using this
    · have := h 2 (by decide); rw [p2, catalogFirst_iff] at this; exact this
    · intro i hi
      have := h i (hlt _ (by decide) i hi); rw [pp i hi] at this; simpa [lit] using this
    · intro i h3 h69 hn
      have := h i h69; rw [pd i h3 h69 hn, spDigit_iff] at this; exact this
  · intro c i hi
    have hcases : ∀ i < 69, i = 0 ∨ i ∈ [1, 7, 16, 25, 33, 42, 51] ∨ i = 2 ∨
        i ∈ [11, 20, 37, 46, 54] ∨ (3 ≤ i ∧ i ∉ [7, 16, 25, 33, 42, 51, 11, 20, 37, 46, 54]) := by
      decide +kernel
    rcases hcases i hi with rfl | h | rfl | h | h
    · rw [p0]; simpa [lit] using c.number
    · rw [pb i h]; simpa [lit] using c.blanks i h
    · rw [p2, catalogFirst_iff]; exact c.catalogFirst
    · rw [pp i h]; simpa [lit] using c.points i h
    · rw [pd i h.1 hi h.2, spDigit_iff]; exact c.digits i h.1 hi h.2

theorem weight_eq (c : Char) : weight c = checksumWeight c := by
  simp [weight, checksumWeight, isDigit, digitVal]

theorem checksum_eq (s : Line) (hlen : s.length = 69) :
    checksum s = (((List.range 68).map fun i => checksumWeight (col s i)).sum) % 10 := by
  unfold checksum
  congr 2
  apply List.ext_getElem
  · simp [hlen]
  · intro i h1 h2
    have hi : i < s.length := by simp at h1; omega
    simp [col, weight_eq, hi]

theorem slice68 (s : Line) (hlen : s.length = 69) : slice 68 69 s = [col s 68] := by
  have h : 68 < s.length := by omega
  unfold slice
  apply List.ext_getElem
  · simp [hlen]
  · intro i h1 h2
    simp at h2
    subst h2
    simp [col, h]

/-- The check of the last column succeeds exactly when the checksum is right. -/
theorem lastDigit_iff (s : Line) (hlen : s.length = 69) (hd : BlankOrDigit (col s 68)) :
    lastDigit s = .ok (checksum s : Int) ↔ ChecksumRight s := by
  unfold lastDigit ChecksumRight
  rw [slice68 s hlen, checksum_eq s hlen]
  rcases hd with hc | hc
  · rw [hc]
    constructor
    · intro h; cases h
    · rintro ⟨⟨h1, _⟩, _⟩; exact absurd h1 (by decide)
  · rw [pyInt_digit _ hc]
    simp only [Except.ok.injEq, hc.1, hc.2, and_self, true_and]
    rw [Nat.cast_inj]
    rfl

theorem checkPair_iff (l1 l2 : Line) : checkPair l1 l2 = .ok () ↔ ElementSet l1 l2 := by
  unfold checkPair
  simp only [bind_eq_ok, require_eq_ok]
  constructor
  · rintro ⟨_, h1, _, h2, _, m1, _, m2, d1, e1, _, c1, d2, e2, c2⟩
    have s1 := (matchLine1_iff l1 h1).mp m1
    have s2 := (matchLine2_iff l2 h2).mp m2
    subst c1 c2
    exact ⟨s1, s2, (lastDigit_iff l1 h1 (s1.digits 68 (by decide))).mp e1,
      (lastDigit_iff l2 h2 (s2.digits 68 (by decide) (by decide) (by decide))).mp e2⟩
  · rintro ⟨s1, s2, c1, c2⟩
    exact ⟨(), s1.length, (), s2.length, (), (matchLine1_iff l1 s1.length).mpr s1, (),
      (matchLine2_iff l2 s2.length).mpr s2, _,
      (lastDigit_iff l1 s1.length (s1.digits 68 (by decide))).mpr c1, (), rfl, _,
      (lastDigit_iff l2 s2.length (s2.digits 68 (by decide) (by decide) (by decide))).mpr c2, rfl⟩

/-- The lines of a list of element sets. -/
def linesOf (sets : List (Line × Line)) : List Line := sets.flatMap fun p => [p.1, p.2]

theorem isValidTle_linesOf (sets : List (Line × Line)) :
    isValidTle (linesOf sets) = .ok () ↔ ∀ p ∈ sets, ElementSet p.1 p.2 := by
  induction sets with
  | nil => simp [linesOf, isValidTle]
  | cons p sets ih =>
    have e : linesOf (p :: sets) = p.1 :: p.2 :: linesOf sets := rfl
    rw [e, isValidTle]
    simp only [List.forall_mem_cons]
    rw [← checkPair_iff, ← ih]
    cases h : checkPair p.1 p.2 with
    | error x => constructor
                 · intro h'; cases h'
                 · rintro ⟨h', _⟩; cases h'
    | ok u => simp [bind, Except.bind]

/-- Every list of lines is the lines of some element sets, or has one line too many. -/
theorem lines_cases (v : List Line) : (∃ sets, v = linesOf sets) ∨ ∃ sets l, v = linesOf sets ++ [l] := by
  induction v using List.twoStepInduction with
  | nil => exact Or.inl ⟨[], rfl⟩
  | singleton l => exact Or.inr ⟨[], l, rfl⟩
  | cons_cons a b v ih _ =>
    rcases ih with ⟨sets, rfl⟩ | ⟨sets, l, rfl⟩
    · exact Or.inl ⟨(a, b) :: sets, rfl⟩
    · exact Or.inr ⟨(a, b) :: sets, l, rfl⟩

theorem epochsOf_linesOf (epoch : Line → Line → Except PyErr Int) (sets : List (Line × Line))
    (es : List Int) : epochsOf epoch (linesOf sets) = .ok es ↔
      List.Forall₂ (fun p e => epoch p.1 p.2 = .ok e) sets es := by
  induction sets generalizing es with
  | nil => simp [linesOf, epochsOf, eq_comm]
  | cons p sets ih =>
    have e : linesOf (p :: sets) = p.1 :: p.2 :: linesOf sets := rfl
    rw [e, epochsOf, List.forall₂_cons_left_iff]
    cases h : epoch p.1 p.2 with
    | error x => constructor
                 · intro h'; cases h'
                 · rintro ⟨b, u, h', _⟩; cases h'
    | ok b =>
      cases h2 : epochsOf epoch (linesOf sets) with
      | error x =>
        constructor
        · intro h'; cases h'
        · rintro ⟨b', u, h', hf, _⟩
          rw [(ih u).mpr hf] at h2; cases h2
      | ok u =>
        constructor
        · intro h'
          refine ⟨b, u, rfl, (ih u).mp h2, ?_⟩
          cases h'; rfl
        · rintro ⟨b', u', h', hf, rfl⟩
          have := (ih u').mpr hf
          rw [h2] at this
          cases this; cases h'; rfl

theorem epochsOf_odd (epoch : Line → Line → Except PyErr Int) (sets : List (Line × Line)) (l : Line) :
    ∃ e, epochsOf epoch (linesOf sets ++ [l]) = .error e := by
  induction sets with
  | nil => exact ⟨_, rfl⟩
  | cons p sets ih =>
    obtain ⟨e, he⟩ := ih
    have e1 : linesOf (p :: sets) ++ [l] = p.1 :: p.2 :: (linesOf sets ++ [l]) := rfl
    rw [e1, epochsOf, he]
    cases epoch p.1 p.2 with
    | error x => exact ⟨_, rfl⟩
    | ok x => exact ⟨_, rfl⟩

theorem nonDecreasing_iff (es : List Int) : nonDecreasing es = true ↔ es.Pairwise (· ≤ ·) := by
  rw [← List.isChain_iff_pairwise]
  unfold nonDecreasing
  induction es with
  | nil => simp
  | cons a l ih =>
    cases l with
    | nil => simp
    | cons b l =>
      rw [List.isChain_cons_cons, ← ih]
      simp

/-- A list of lines describes one or more element sets in order of epoch. -/
def WellFormed (epoch : Line → Line → Except PyErr Int) (v : List Line) : Prop :=
  ∃ sets : List (Line × Line), sets ≠ [] ∧ v = (sets.flatMap fun p => [p.1, p.2]) ∧
    (∀ p ∈ sets, ElementSet p.1 p.2) ∧
    ∃ epochs : List Int, List.Forall₂ (fun p e => epoch p.1 p.2 = .ok e) sets epochs ∧
      epochs.Pairwise (· ≤ ·)

theorem linesOf_length (s : List (Line × Line)) : (linesOf s).length = 2 * s.length := by
  induction s with
  | nil => rfl
  | cons p s ih =>
    have e : linesOf (p :: s) = p.1 :: p.2 :: linesOf s := rfl
    rw [e]; simp only [List.length_cons, ih]; omega

/-- What construction checks. -/
theorem construct_ok (epoch : Line → Line → Except PyErr Int) (v w : List Line) :
    construct epoch v = .ok w ↔ (∃ es, epochsOf epoch v = .ok es ∧ nonDecreasing es = true) ∧
      isValidTle v = .ok () ∧ v.length % 2 ≠ 1 ∧ 2 ≤ v.length ∧ v = w := by
  unfold construct isChronological isEvenLength
  simp only [bind_eq_ok, require_eq_ok, pure, Except.pure, Except.ok.injEq]
  constructor
  · rintro ⟨_, ⟨es, h1, h2⟩, ⟨⟩, h3, _, h4, _, h5, rfl⟩
    exact ⟨⟨es, h1, h2⟩, h3, h4, h5, rfl⟩
  · rintro ⟨⟨es, h1, h2⟩, h3, h4, h5, rfl⟩
    exact ⟨(), ⟨es, h1, h2⟩, (), h3, (), h4, (), h5, rfl⟩

/-- **C18.** A list of lines is accepted exactly when it consists of one or more pairs of lines with
the column syntax and checksums of element sets, with readable epochs that never decrease. -/
theorem C18_accepted_iff (epoch : Line → Line → Except PyErr Int) (v : List Line) :
    (∃ w, construct epoch v = .ok w) ↔ WellFormed epoch v := by
  constructor
  · rintro ⟨w, h⟩
    obtain ⟨⟨es, h1, h2⟩, h3, h4, h5, -⟩ := (construct_ok epoch v w).mp h
    rcases lines_cases v with ⟨sets, rfl⟩ | ⟨sets, l, rfl⟩
    · refine ⟨sets, ?_, rfl, (isValidTle_linesOf sets).mp h3, es, (epochsOf_linesOf epoch sets es).mp h1,
        (nonDecreasing_iff es).mp h2⟩
      rintro rfl
      simp [linesOf] at h5
    · obtain ⟨e, he⟩ := epochsOf_odd epoch sets l
      rw [he] at h1; cases h1
  · rintro ⟨sets, hne, hv, hset, es, hes, hpw⟩
    have hv' : v = linesOf sets := hv
    refine ⟨v, (construct_ok epoch v v).mpr ?_⟩
    rw [hv', linesOf_length]
    have := List.length_pos_iff.mpr hne
    exact ⟨⟨es, (epochsOf_linesOf epoch sets es).mpr hes, (nonDecreasing_iff es).mpr hpw⟩,
      (isValidTle_linesOf sets).mpr hset, by omega, by omega, rfl⟩

/-- An accepted list is kept unchanged. -/
theorem C18_unchanged (epoch : Line → Line → Except PyErr Int) (v w : List Line)
    (h : construct epoch v = .ok w) : w = v :=
  ((construct_ok epoch v w).mp h).2.2.2.2.symm

/-- The International Space Station's element set of the documentation. -/
def iss1 : Line := "1 25544U 98067A   21156.30527927  .00003432  00000-0  70541-4 0  9993".toList
def iss2 : Line := "2 25544  51.6455  41.4969 0003508  68.0432  78.3395 15.48957534286754".toList

/-- It is accepted, alone and repeated; so the hypotheses below can be met. -/
example : construct (fun _ _ => .ok 0) [iss1, iss2] = .ok [iss1, iss2] := by decide +kernel
example : WellFormed (fun _ _ => .ok 0) [iss1, iss2, iss1, iss2] :=
  (C18_accepted_iff _ _).mp ⟨[iss1, iss2, iss1, iss2], by decide +kernel⟩
/-- Epochs in the wrong order are rejected. -/
example : ¬ WellFormed (fun a _ => .ok (if a = iss1 then 1 else 0))
    [iss1, iss2, "1 25544U 98067A   21156.30527927  .00003432  00000-0  70540-4 0  9992".toList, iss2] := by
  rw [← C18_accepted_iff]
  rintro ⟨w, hw⟩
  obtain ⟨⟨es, he, hn⟩, -⟩ := (construct_ok _ _ _).mp hw
  have : es = [1, 0] := by
    have h : Except.ok es = (Except.ok [1, 0] : Except PyErr (List Int)) := by
      rw [← he]; decide +kernel
    cases h; rfl
  subst this
  exact absurd hn (by decide)

/-- **C18, finding.** An odd number of lines is never reported as such (the length check comes last):
when the epochs of the complete pairs can be read, construction fails with `IndexError`, which is not
a validation error. -/
theorem C18_odd_index_error (epoch : Line → Line → Except PyErr Int) (sets : List (Line × Line)) (l : Line)
    (h : ∀ p ∈ sets, ∃ e, epoch p.1 p.2 = .ok e) :
    construct epoch ((sets.flatMap fun p => [p.1, p.2]) ++ [l]) = .error .indexError := by
  have key : epochsOf epoch (linesOf sets ++ [l]) = .error .indexError := by
    induction sets with
    | nil => rfl
    | cons p sets ih =>
      have e1 : linesOf (p :: sets) ++ [l] = p.1 :: p.2 :: (linesOf sets ++ [l]) := rfl
      obtain ⟨e, he⟩ := h p (by simp)
      rw [e1, epochsOf, he, ih (fun q hq => h q (List.mem_cons_of_mem _ hq))]
      rfl
  show construct epoch (linesOf sets ++ [l]) = _
  unfold construct isChronological
  rw [key]
  rfl

example := C18_odd_index_error (fun _ _ => .ok 0) [(iss1, iss2)] iss1 (by simp)

/-! ## C19 -/

theorem isValidTle_odd (sets : List (Line × Line)) (l : Line) :
    ∃ e, isValidTle (linesOf sets ++ [l]) = .error e := by
  induction sets with
  | nil =>
    show ∃ e, isValidTle [l] = .error e
    unfold isValidTle
    split_ifs <;> exact ⟨_, rfl⟩
  | cons p sets ih =>
    obtain ⟨e, he⟩ := ih
    have e1 : linesOf (p :: sets) ++ [l] = p.1 :: p.2 :: (linesOf sets ++ [l]) := rfl
    rw [e1, isValidTle, he]
    cases checkPair p.1 p.2 with
    | error x => exact ⟨_, rfl⟩
    | ok x => exact ⟨_, rfl⟩

theorem mem_valid (v : List Line) (h : isValidTle v = .ok ()) (l : Line) (hl : l ∈ v) :
    l.length = 69 ∧ ChecksumRight l := by
  rcases lines_cases v with ⟨sets, rfl⟩ | ⟨sets, l, rfl⟩
  · have hs := (isValidTle_linesOf sets).mp h
    obtain ⟨p, hp, hlp⟩ := List.mem_flatMap.mp hl
    have := hs p hp
    simp at hlp
    rcases hlp with rfl | rfl
    · exact ⟨this.line1.length, this.sum1⟩
    · exact ⟨this.line2.length, this.sum2⟩
  · obtain ⟨e, he⟩ := isValidTle_odd sets l
    rw [he] at h; cases h

theorem sum_change (f g : Nat → Nat) (j n : Nat) (hfg : ∀ i, i ≠ j → f i = g i) :
    (j < n → ((List.range n).map f).sum + g j = ((List.range n).map g).sum + f j) ∧
    (n ≤ j → ((List.range n).map f).sum = ((List.range n).map g).sum) := by
  induction n with
  | zero => simp
  | succ n ih =>
    rw [List.range_succ]
    simp only [List.map_append, List.map_cons, List.map_nil, List.sum_append, List.sum_cons, List.sum_nil]
    constructor
    · intro hj
      by_cases h : j = n
      · subst h
        have := ih.2 le_rfl
        omega
      · have := ih.1 (by omega)
        rw [hfg n (fun h' => h h'.symm)]
        omega
    · intro hj
      rw [ih.2 (by omega), hfg n (by omega)]

theorem col_set (s : Line) (i j : Nat) (d : Char) (hj : j < s.length) :
    col (s.set j d) i = if i = j then d else col s i := by
  unfold col
  by_cases h : i = j
  · subst h
    simp [hj]
  · have h' : j ≠ i := fun e => h e.symm
    simp [h, h']

theorem digit_val_inj {c d : Char} (hc : '0' ≤ c ∧ c ≤ '9') (hd : '0' ≤ d ∧ d ≤ '9')
    (h : c.toNat - '0'.toNat = d.toNat - '0'.toNat) : c = d := by
  have h1 : '0'.toNat ≤ c.toNat := hc.1
  have h2 : '0'.toNat ≤ d.toNat := hd.1
  apply Char.ext
  apply UInt32.toNat_inj.mp
  show c.toNat = d.toNat
  omega

/-- One changed digit changes the checksum condition. -/
theorem checksum_changed (s : Line) (hlen : s.length = 69) (j : Nat) (hj : j < s.length) (d : Char)
    (hc : '0' ≤ col s j ∧ col s j ≤ '9') (hd : '0' ≤ d ∧ d ≤ '9') (hne : d ≠ col s j)
    (h1 : ChecksumRight s) : ¬ ChecksumRight (s.set j d) := by
  intro h2
  obtain ⟨⟨a1, b1⟩, e1⟩ := h1
  obtain ⟨⟨a2, b2⟩, e2⟩ := h2
  have hch := sum_change (fun i => checksumWeight (col (s.set j d) i)) (fun i => checksumWeight (col s i)) j 68
    (by intro i hi; simp [col_set s i j d hj, hi])
  by_cases h68 : j = 68
  · rw [hch.2 (by omega), ← e1] at e2
    rw [col_set s 68 j d hj] at e2
    simp only [h68, if_true] at e2
    rw [h68] at hne hc
    exact hne (digit_val_inj hd hc e2)
  · have hlt : j < 68 := by omega
    have hs := hch.1 hlt
    have h68' : col (s.set j d) 68 = col s 68 := by
      rw [col_set s 68 j d hj, if_neg (fun h => h68 h.symm)]
    rw [h68', e1] at e2
    have wd : checksumWeight (col (s.set j d) j) = d.toNat - '0'.toNat := by
      rw [col_set s j j d hj]
      simp [checksumWeight, hd.1, hd.2]
    have wc : checksumWeight (col s j) = (col s j).toNat - '0'.toNat := by
      simp [checksumWeight, hc.1, hc.2]
    simp only [wd, wc] at hs
    have hne' : d.toNat - '0'.toNat ≠ (col s j).toNat - '0'.toNat := fun h => hne (digit_val_inj hd hc h)
    have l1 : d.toNat - '0'.toNat ≤ 9 := by
      have : d.toNat ≤ '9'.toNat := hd.2
      simp at this ⊢; omega
    have l2 : (col s j).toNat - '0'.toNat ≤ 9 := by
      have : (col s j).toNat ≤ '9'.toNat := hc.2
      simp at this ⊢; omega
    omega

/-- **C19.** Changing one digit of one line of a valid list of lines to another digit makes the list
invalid. -/
theorem C19_digit_changed (v : List Line) (h : isValidTle v = .ok ()) (k : Nat) (hk : k < v.length)
    (j : Nat) (hj : j < v[k].length) (d : Char)
    (hc : '0' ≤ v[k][j] ∧ v[k][j] ≤ '9') (hd : '0' ≤ d ∧ d ≤ '9') (hne : d ≠ v[k][j]) :
    isValidTle (v.set k (v[k].set j d)) ≠ .ok () := by
  intro h'
  obtain ⟨hlen, hs⟩ := mem_valid v h v[k] (List.getElem_mem hk)
  have hm : v[k].set j d ∈ v.set k (v[k].set j d) := by
    rw [List.mem_iff_getElem]
    exact ⟨k, by simpa using hk, by simp⟩
  have hs' := (mem_valid _ h' _ hm).2
  have hcol : col v[k] j = v[k][j] := by simp [col, hj]
  exact checksum_changed v[k] hlen j hj d (hcol ▸ hc) hd (hcol ▸ hne) hs hs'

/-- Hence construction fails too, whatever the epochs. -/
theorem C19_not_constructed (epoch : Line → Line → Except PyErr Int) (v : List Line)
    (h : isValidTle v = .ok ()) (k : Nat) (hk : k < v.length)
    (j : Nat) (hj : j < v[k].length) (d : Char)
    (hc : '0' ≤ v[k][j] ∧ v[k][j] ≤ '9') (hd : '0' ≤ d ∧ d ≤ '9') (hne : d ≠ v[k][j]) :
    ∀ w, construct epoch (v.set k (v[k].set j d)) ≠ .ok w := by
  intro w hw
  exact C19_digit_changed v h k hk j hj d hc hd hne ((construct_ok _ _ w).mp hw).2.1

/-- The inclination's second digit read as 2 instead of 1. -/
example : isValidTle [iss1, iss2.set 9 '2'] ≠ .ok () :=
  C19_digit_changed [iss1, iss2] (by decide +kernel) 1 (by decide) 9 (by decide +kernel) '2'
    (by decide +kernel) (by decide) (by decide +kernel)

end Tatc.Props
