import Verif.Model.Text
import Mathlib.Tactic.Ring

namespace CDT

theorem digitByte_toNat {d : ℕ} (h : d < 36) :
    (digitByte d).toNat = if d < 10 then 48 + d else 87 + d := by
  unfold digitByte
  split <;> (rw [BitVec.toNat_ofNat]; omega)

theorem digitValue_digitByte {base d : ℕ} (hb : base ≤ 36) (h : d < base) :
    digitValue base (digitByte d) = some d := by
  have e := digitByte_toNat (d := d) (by omega)
  unfold digitValue
  simp only [e]
  by_cases h10 : d < 10
  · simp only [h10, if_true]
    rw [if_pos (by omega)]
    simp [h]
  · simp only [h10, if_false]
    rw [if_neg (by omega), if_pos (by omega)]
    simp [h]

theorem digitsValue_reverse (base : ℕ) (l : List ℕ) :
    digitsValue base l.reverse = Nat.ofDigits base l := by
  unfold digitsValue
  rw [List.foldl_reverse]
  induction l with
  | nil => rfl
  | cons a l ih => simp only [List.foldr_cons, Nat.ofDigits_cons]; rw [ih]; push_cast; ring

theorem mapM_digitValue {base : ℕ} (hb : base ≤ 36) (l : List ℕ) (hl : ∀ d ∈ l, d < base) :
    (l.map digitByte).mapM (digitValue base) = some l := by
  induction l with
  | nil => rfl
  | cons a l ih =>
    rw [List.map_cons, List.mapM_cons, digitValue_digitByte hb (hl a (by simp)),
      ih (fun d hd => hl d (by simp [hd]))]
    rfl

theorem digitsValue_zeros (base : ℕ) (k : ℕ) (l : List ℕ) :
    digitsValue base (List.replicate k 0 ++ l) = digitsValue base l := by
  unfold digitsValue
  rw [List.foldl_append]
  congr 1
  induction k with
  | zero => rfl
  | succ k ih => rw [List.replicate_succ, List.foldl_cons]; simpa using ih

/-- The digit values of `numeral`. -/
def numeralDigits (base n : ℕ) : List ℕ := if n = 0 then [0] else (Nat.digits base n).reverse

theorem numeral_eq (base n : ℕ) : numeral base n = (numeralDigits base n).map digitByte := by
  unfold numeral numeralDigits; split <;> simp

theorem numeralDigits_lt {base : ℕ} (hb : 2 ≤ base) (n : ℕ) :
    ∀ d ∈ numeralDigits base n, d < base := by
  unfold numeralDigits
  split
  · intro d hd; simp at hd; omega
  · intro d hd; exact Nat.digits_lt_base (by omega) (List.mem_reverse.1 hd)

theorem numeralDigits_value {base : ℕ} (n : ℕ) :
    digitsValue base (numeralDigits base n) = n := by
  unfold numeralDigits
  split
  · subst n; simp [digitsValue]
  · rw [digitsValue_reverse, Nat.ofDigits_digits]

theorem numeralDigits_ne_nil (base n : ℕ) : numeralDigits base n ≠ [] := by
  unfold numeralDigits
  split
  · simp
  · simp [Nat.digits_ne_nil_iff_ne_zero, *]

theorem wholeNumeral_numeral {base : ℕ} (h2 : 2 ≤ base) (hb : base ≤ 36) (n : ℕ) :
    wholeNumeral base (numeral base n) = some n := by
  unfold wholeNumeral
  rw [if_neg (by simp [numeral_eq, numeralDigits_ne_nil]), numeral_eq,
    mapM_digitValue hb _ (numeralDigits_lt h2 n)]
  simp [numeralDigits_value]

theorem parseUnsigned_decimal {n : ℕ} (h : n < 2 ^ 64) : parseUnsigned 10 (decimal n) = some n := by
  unfold parseUnsigned decimal
  rw [wholeNumeral_numeral (by omega) (by omega)]
  simp only [Option.bind_some, h, if_true]

theorem parseUnsigned_hex16 {n : ℕ} (h : n < 2 ^ 64) : parseUnsigned 16 (hex16 n) = some n := by
  have e : hex16 n =
      (List.replicate (16 - (numeral 16 n).length) 0 ++ numeralDigits 16 n).map digitByte := by
    simp only [hex16, List.map_append, List.map_replicate, numeral_eq]
  unfold parseUnsigned wholeNumeral
  rw [if_neg (by simp [e, numeralDigits_ne_nil]), e, mapM_digitValue (by omega)]
  · simp only [Option.map_some, digitsValue_zeros, numeralDigits_value, Option.bind_some, h,
      if_true]
  · intro d hd
    rcases List.mem_append.1 hd with hd | hd
    · have := List.eq_of_mem_replicate hd; omega
    · exact numeralDigits_lt (by omega) n d hd

theorem mem_decimal {n : ℕ} {b : Byte} (h : b ∈ decimal n) : 48 ≤ b.toNat ∧ b.toNat ≤ 57 := by
  unfold decimal at h
  rw [numeral_eq] at h
  obtain ⟨d, hd, rfl⟩ := List.mem_map.1 h
  have := numeralDigits_lt (base := 10) (by omega) n d hd
  rw [digitByte_toNat (by omega)]
  split <;> omega

theorem mem_hex16 {n : ℕ} {b : Byte} (h : b ∈ hex16 n) : 48 ≤ b.toNat ∧ b.toNat ≤ 102 := by
  have e : hex16 n =
      (List.replicate (16 - (numeral 16 n).length) 0 ++ numeralDigits 16 n).map digitByte := by
    simp only [hex16, List.map_append, List.map_replicate, numeral_eq]
  rw [e] at h
  obtain ⟨d, hd, rfl⟩ := List.mem_map.1 h
  have : d < 16 := by
    rcases List.mem_append.1 hd with hd | hd
    · have := List.eq_of_mem_replicate hd; omega
    · exact numeralDigits_lt (by omega) n d hd
  rw [digitByte_toNat (by omega)]
  split <;> omega

theorem decimal_ne_nil (n : ℕ) : decimal n ≠ [] := by
  unfold decimal; rw [numeral_eq]; simp [numeralDigits_ne_nil]

theorem hex16_ne_nil (n : ℕ) : hex16 n ≠ [] := by
  unfold hex16; simp [numeral_eq, numeralDigits_ne_nil]

theorem decimalInt_ne_nil (i : ℤ) : decimalInt i ≠ [] := by
  unfold decimalInt; split
  · simp
  · exact decimal_ne_nil _

theorem mem_decimalInt {i : ℤ} {b : Byte} (h : b ∈ decimalInt i) :
    b = minusSign ∨ (48 ≤ b.toNat ∧ b.toNat ≤ 57) := by
  unfold decimalInt at h
  split at h
  · rcases List.mem_cons.1 h with h | h
    · exact .inl h
    · exact .inr (mem_decimal h)
  · exact .inr (mem_decimal h)

theorem parseInt_decimalInt {i : ℤ} (h : -2 ^ 31 ≤ i ∧ i < 2 ^ 31) :
    parseInt (decimalInt i) = some i := by
  unfold decimalInt
  by_cases hneg : i < 0
  · rw [if_pos hneg]
    simp only [parseInt, if_true]
    unfold decimal
    rw [wholeNumeral_numeral (by omega) (by omega)]
    simp only [Option.bind_some]
    rw [if_pos (by omega)]
    congr 1; omega
  · rw [if_neg hneg]
    obtain ⟨b, rest, hbr⟩ := List.exists_cons_of_ne_nil (decimal_ne_nil i.natAbs)
    have hb : b ≠ minusSign := by
      rintro rfl
      have := mem_decimal (n := i.natAbs) (b := minusSign) (by rw [hbr]; simp)
      simp [minusSign] at this
    have hw : wholeNumeral 10 (b :: rest) = some i.natAbs := by
      rw [← hbr]; exact wholeNumeral_numeral (by omega) (by omega) _
    rw [hbr]
    simp only [parseInt, if_neg hb, hw, Option.bind_some]
    rw [if_pos (by omega)]
    congr 1; omega

theorem decimal_injective : Function.Injective decimal := by
  intro a b h
  have ha := wholeNumeral_numeral (base := 10) (by omega) (by omega) a
  have hb := wholeNumeral_numeral (base := 10) (by omega) (by omega) b
  unfold decimal at h
  rw [h, hb] at ha
  exact (Option.some.inj ha).symm

theorem newline_notMem_decimal (n : ℕ) : newline ∉ decimal n := fun h => by
  have := mem_decimal h; simp [newline] at this

theorem newline_notMem_decimalInt (i : ℤ) : newline ∉ decimalInt i := fun h => by
  rcases mem_decimalInt h with h | h
  · exact absurd h (by decide)
  · simp [newline] at h

theorem newline_notMem_hex16 (n : ℕ) : newline ∉ hex16 n := fun h => by
  have := mem_hex16 h; simp [newline] at this

theorem bar_notMem_decimalInt (i : ℤ) : bar ∉ decimalInt i := fun h => by
  rcases mem_decimalInt h with h | h
  · exact absurd h (by decide)
  · simp [bar] at h

theorem takeWhile_line {l : Bytes} (h : newline ∉ l) (rest : Bytes) :
    (l ++ newline :: rest).takeWhile (· ≠ newline) = l ∧
      (l ++ newline :: rest).dropWhile (· ≠ newline) = newline :: rest := by
  induction l with
  | nil => simp
  | cons a l ih =>
    have ha : a ≠ newline := fun e => h (by simp [e])
    have hl : newline ∉ l := fun e => h (by simp [e])
    have := ih hl
    simp only [List.cons_append, List.takeWhile_cons, List.dropWhile_cons]
    simp only [decide_not, ne_eq, ha, decide_false, Bool.not_false, if_true]
    simpa using this

theorem getline_line {l : Bytes} (h : newline ∉ l) (rest : Bytes) :
    getline (l ++ newline :: rest) = some (l, rest) := by
  unfold getline
  rw [if_neg (by simp), (takeWhile_line h rest).1, (takeWhile_line h rest).2]
  rfl

theorem getline_nil : getline [] = none := rfl

theorem stripPrefix_append (p t : Bytes) : stripPrefix p (p ++ t) = some t := by
  induction p with
  | nil => rfl
  | cons a p ih => simp [stripPrefix, ih]

theorem stripPrefix_eq_some {p t r : Bytes} : stripPrefix p t = some r ↔ t = p ++ r := by
  induction p generalizing t with
  | nil => simp [stripPrefix]
  | cons a p ih =>
    cases t with
    | nil => simp [stripPrefix]
    | cons b t =>
      simp only [stripPrefix]
      split
      · rename_i h; subst h; simp [ih]
      · rename_i h
        simp only [List.cons_append, List.cons.injEq, reduceCtorEq, false_iff]
        exact fun e => h e.1.symm

theorem splitLast_eq_none {c : Byte} {t : Bytes} : splitLast c t = none ↔ c ∉ t := by
  induction t with
  | nil => simp [splitLast]
  | cons a t ih =>
    simp only [splitLast]
    cases h : splitLast c t with
    | none =>
      have := ih.1 h
      by_cases ha : a = c
      · simp [ha]
      · simp [ha, this]; exact fun e => ha e.symm
    | some p =>
      have : c ∈ t := by by_contra hc; rw [ih.2 hc] at h; simp at h
      simp [this]

theorem splitLast_eq_some {c : Byte} {t l r : Bytes} :
    splitLast c t = some (l, r) ↔ t = l ++ c :: r ∧ c ∉ r := by
  induction t generalizing l r with
  | nil => simp [splitLast]
  | cons a t ih =>
    simp only [splitLast]
    cases h : splitLast c t with
    | none =>
      have hn := splitLast_eq_none.1 h
      by_cases ha : a = c
      · subst ha
        simp only [if_true, Option.some.injEq, Prod.mk.injEq]
        constructor
        · rintro ⟨rfl, rfl⟩; exact ⟨rfl, hn⟩
        · rintro ⟨e, hr⟩
          cases l with
          | nil => simp at e; exact ⟨rfl, e⟩
          | cons b l => simp at e; exact absurd (by rw [e.2]; simp) hn
      · simp only [ha, if_false, reduceCtorEq, false_iff]
        rintro ⟨e, hr⟩
        cases l with
        | nil => simp at e; exact ha e.1
        | cons b l => simp at e; exact absurd (by rw [e.2]; simp) hn
    | some p =>
      obtain ⟨l', r'⟩ := p
      have h' := ih.1 h
      simp only [Option.some.injEq, Prod.mk.injEq]
      constructor
      · rintro ⟨rfl, rfl⟩; exact ⟨by rw [h'.1]; rfl, h'.2⟩
      · rintro ⟨e, hr⟩
        cases l with
        | nil =>
          simp at e
          exact absurd (by rw [← e.2, h'.1]; simp) hr
        | cons b l =>
          simp at e
          have := ih.2 ⟨e.2, hr⟩
          rw [h] at this
          simp at this
          exact ⟨by rw [e.1, this.1], this.2⟩

theorem splitFirst_eq_some {c : Byte} {t l r : Bytes} :
    splitFirst c t = some (l, r) ↔ t = l ++ c :: r ∧ c ∉ l := by
  induction t generalizing l r with
  | nil => simp [splitFirst]
  | cons a t ih =>
    simp only [splitFirst]
    by_cases ha : a = c
    · subst ha
      simp only [if_true, Option.some.injEq, Prod.mk.injEq]
      constructor
      · rintro ⟨rfl, rfl⟩; simp
      · rintro ⟨e, hl⟩
        cases l with
        | nil => simp at e; exact ⟨rfl, e⟩
        | cons b l => simp at e; exact absurd (by simp [e.1]) hl
    · simp only [ha, if_false, Option.map_eq_some_iff, Prod.mk.injEq, Prod.exists]
      constructor
      · rintro ⟨l', r', h, rfl, rfl⟩
        have := ih.1 h
        exact ⟨by rw [this.1]; rfl, by simp [this.2]; exact fun e => ha e.symm⟩
      · rintro ⟨e, hl⟩
        cases l with
        | nil => simp at e; exact absurd e.1 ha
        | cons b l =>
          simp at e
          exact ⟨l, r, ih.2 ⟨e.2, fun h => hl (by simp [h])⟩, by rw [e.1], rfl⟩

theorem splitFirst_eq_none {c : Byte} {t : Bytes} : splitFirst c t = none ↔ c ∉ t := by
  induction t with
  | nil => simp [splitFirst]
  | cons a t ih =>
    simp only [splitFirst]
    by_cases ha : a = c
    · simp [ha]
    · simp only [ha, if_false, Option.map_eq_none_iff, ih, List.mem_cons, not_or]
      exact ⟨fun h => ⟨fun e => ha e.symm, h⟩, fun h => h.2⟩

end CDT
