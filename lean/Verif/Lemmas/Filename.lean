import Verif.Model.Filename
import Verif.Lemmas.Text
import Verif.Spec.Filename
import Mathlib.Tactic.Linarith
import Mathlib.Tactic.NormNum
import Mathlib.Tactic.FieldSimp
import Mathlib.Tactic.Ring
/-
Reading the components back from a file name.
-/
namespace CDT
open Spec

/-- Characters of one kind followed by one of another kind are delimited. -/
theorem delimited {P : Byte → Prop} {a a' : Bytes} {c c' : Byte} {r r' : Bytes}
    (ha : ∀ b ∈ a, P b) (ha' : ∀ b ∈ a', P b) (hc : ¬ P c) (hc' : ¬ P c')
    (h : a ++ c :: r = a' ++ c' :: r') : a = a' ∧ c = c' ∧ r = r' := by
  induction a generalizing a' with
  | nil =>
    cases a' with
    | nil => simpa using h
    | cons x a' =>
      simp only [List.nil_append, List.cons_append, List.cons.injEq] at h
      exact absurd (h.1 ▸ ha' x (by simp)) hc
  | cons x a ih =>
    cases a' with
    | nil =>
      simp only [List.nil_append, List.cons_append, List.cons.injEq] at h
      exact absurd (h.1 ▸ ha x (by simp)) hc'
    | cons y a' =>
      simp only [List.cons_append, List.cons.injEq] at h
      obtain ⟨rfl, h⟩ := h
      obtain ⟨rfl, h2⟩ := ih (fun b hb => ha b (by simp [hb])) (fun b hb => ha' b (by simp [hb])) h
      exact ⟨rfl, h2⟩

/-- Decimal digit characters. -/
def IsDigit (b : Byte) : Prop := 48 ≤ b.toNat ∧ b.toNat ≤ 57

instance : DecidablePred IsDigit := fun b => inferInstanceAs (Decidable (_ ∧ _))

theorem decimal_delimited {m n : ℕ} {c c' : Byte} {r r' : Bytes} (hc : ¬ IsDigit c)
    (hc' : ¬ IsDigit c') (h : decimal m ++ c :: r = decimal n ++ c' :: r') :
    m = n ∧ c = c' ∧ r = r' := by
  obtain ⟨h1, h2⟩ := delimited (P := IsDigit) (fun _ => mem_decimal) (fun _ => mem_decimal) hc hc' h
  exact ⟨decimal_injective h1, h2⟩

theorem not_digit_minus : ¬ IsDigit minusSign := by decide
theorem not_digit_dot : ¬ IsDigit dot := by decide

theorem decimal_head_ne_minus {n : ℕ} {r l : Bytes} : decimal n ++ r ≠ minusSign :: l := by
  intro h
  obtain ⟨b, s, hb⟩ := List.exists_cons_of_ne_nil (decimal_ne_nil n)
  have hd := mem_decimal (n := n) (b := b) (by rw [hb]; simp)
  rw [hb, List.cons_append, List.cons.injEq] at h
  rw [h.1] at hd
  exact not_digit_minus hd

theorem decimalInt_delimited {i j : ℤ} {c c' : Byte} {r r' : Bytes} (hc : ¬ IsDigit c)
    (hc' : ¬ IsDigit c') (h : decimalInt i ++ c :: r = decimalInt j ++ c' :: r') :
    i = j ∧ c = c' ∧ r = r' := by
  unfold decimalInt at h
  split_ifs at h with h1 h2 h2
  · simp only [List.cons_append, List.cons.injEq, true_and] at h
    obtain ⟨e, h⟩ := decimal_delimited hc hc' h
    exact ⟨by omega, h⟩
  · exact absurd h.symm (by simpa using decimal_head_ne_minus)
  · exact absurd h (by simpa using decimal_head_ne_minus)
  · obtain ⟨e, h⟩ := decimal_delimited hc hc' h
    exact ⟨by omega, h⟩

theorem wholeNumeral_padded (k n : ℕ) : wholeNumeral 10 (padded k n) = some n := by
  have e : padded k n =
      (List.replicate (k - (decimal n).length) 0 ++ numeralDigits 10 n).map digitByte := by
    simp only [padded, List.map_append, List.map_replicate, decimal, numeral_eq]
  unfold wholeNumeral
  rw [if_neg (by simp [e, numeralDigits_ne_nil]), e, mapM_digitValue (by omega)]
  · simp only [Option.map_some, digitsValue_zeros, numeralDigits_value]
  · intro d hd
    rcases List.mem_append.1 hd with hd | hd
    · have := List.eq_of_mem_replicate hd; omega
    · exact numeralDigits_lt (by omega) n d hd

theorem padded_injective (k : ℕ) : Function.Injective (padded k) := by
  intro a b h
  have := wholeNumeral_padded k a
  rw [h, wholeNumeral_padded] at this
  exact (Option.some.inj this).symm

theorem padded_digits {k n : ℕ} {b : Byte} (h : b ∈ padded k n) : IsDigit b := by
  rcases List.mem_append.1 h with h | h
  · rw [List.eq_of_mem_replicate h]; decide
  · exact mem_decimal h

theorem padded_delimited {k m n : ℕ} {c c' : Byte} {r r' : Bytes} (hc : ¬ IsDigit c)
    (hc' : ¬ IsDigit c') (h : padded k m ++ c :: r = padded k n ++ c' :: r') :
    m = n ∧ c = c' ∧ r = r' := by
  obtain ⟨h1, h2⟩ := delimited (P := IsDigit) (fun _ => padded_digits) (fun _ => padded_digits) hc hc' h
  exact ⟨padded_injective k h1, h2⟩

/-- The number of millionths printed. -/
def millionths (q : ℚ) : ℕ := (roundEven (|q| * 1000000)).toNat

theorem fixed6_delimited {q q' : ℚ} {c c' : Byte} {r r' : Bytes} (hc : ¬ IsDigit c)
    (hc' : ¬ IsDigit c') (h : fixed6 q ++ c :: r = fixed6 q' ++ c' :: r') :
    (q < 0 ↔ q' < 0) ∧ millionths q = millionths q' ∧ c = c' ∧ r = r' := by
  have core : ∀ m n : ℕ,
      decimal (m / 1000000) ++ dot :: (padded 6 (m % 1000000) ++ c :: r) =
        decimal (n / 1000000) ++ dot :: (padded 6 (n % 1000000) ++ c' :: r') →
      m = n ∧ c = c' ∧ r = r' := by
    intro m n h
    obtain ⟨e, -, h⟩ := decimal_delimited not_digit_dot not_digit_dot h
    obtain ⟨e', h⟩ := padded_delimited hc hc' h
    exact ⟨by omega, h⟩
  unfold fixed6 at h
  dsimp only at h
  split_ifs at h with h1 h2 h2
  · simp only [List.append_assoc, List.cons_append, List.nil_append, List.cons.injEq,
      true_and] at h
    exact ⟨by simp [h1, h2], core _ _ h⟩
  · simp only [List.append_assoc, List.cons_append, List.nil_append] at h
    exact absurd h.symm decimal_head_ne_minus
  · simp only [List.append_assoc, List.cons_append, List.nil_append] at h
    exact absurd h decimal_head_ne_minus
  · simp only [List.append_assoc, List.cons_append, List.nil_append] at h
    exact ⟨by simp [h1, h2], core _ _ h⟩

theorem roundEven_near (x : ℚ) : |(roundEven x : ℚ) - x| ≤ 1 / 2 := by
  have h1 := Int.floor_le x
  have h2 := Int.lt_floor_add_one x
  unfold roundEven
  split_ifs <;> rw [abs_le] <;> push_cast <;> constructor <;> linarith

theorem roundEven_nonneg {x : ℚ} (h : 0 ≤ x) : 0 ≤ roundEven x := by
  have := roundEven_near x
  rw [abs_le] at this
  have h3 : (-1 : ℚ) < roundEven x := by linarith
  have : (-1 : ℤ) < roundEven x := by exact_mod_cast h3
  omega

/-- Values printed alike are within a millionth of each other. -/
theorem close_of_millionths {q q' : ℚ} (hs : q < 0 ↔ q' < 0) (h : millionths q = millionths q') :
    |q - q'| ≤ 1 / 1000000 := by
  have e : roundEven (|q| * 1000000) = roundEven (|q'| * 1000000) := by
    have h1 := roundEven_nonneg (x := |q| * 1000000) (by positivity)
    have h2 := roundEven_nonneg (x := |q'| * 1000000) (by positivity)
    unfold millionths at h
    omega
  have h1 := roundEven_near (|q| * 1000000)
  have h2 := roundEven_near (|q'| * 1000000)
  rw [e] at h1
  rw [abs_le] at h1 h2
  have h3 : |(|q| - |q'|)| ≤ 1 / 1000000 := by rw [abs_le]; constructor <;> linarith
  by_cases hq : q < 0
  · rw [abs_of_neg hq, abs_of_neg (hs.1 hq), abs_le] at h3
    rw [abs_le]; constructor <;> linarith
  · have hq' : ¬ q' < 0 := fun h => hq (hs.2 h)
    rw [abs_of_nonneg (a := q) (by linarith), abs_of_nonneg (a := q') (by linarith)] at h3
    exact h3

/-- The time as it appears in file names. -/
def stampText (s : Stamp) : Bytes :=
  padded 4 s.year ++ minusSign :: (padded 2 s.month ++ minusSign :: (padded 2 s.day ++
    dot :: (padded 2 s.hour ++ minusSign :: (padded 2 s.minute ++ minusSign ::
      (padded 2 s.second ++ ascii "UTC")))))

theorem map_padded (k n : ℕ) :
    (padded k n).map (fun b => if b = timeColon then minusSign else b) = padded k n := by
  conv_rhs => rw [← List.map_id (padded k n)]
  apply List.map_congr_left
  intro b hb
  have := padded_digits hb
  have hne : b ≠ timeColon := by rintro rfl; revert this; decide
  simp [hne]

theorem map_stamp (s : Stamp) :
    (currentDateTime s).map (fun b => if b = timeColon then minusSign else b) = stampText s := by
  have h1 : (ascii "UTC").map (fun b => if b = timeColon then minusSign else b) = ascii "UTC" := by
    decide +kernel
  have h2 : (if minusSign = timeColon then minusSign else minusSign) = minusSign := by decide
  have h3 : (if dot = timeColon then minusSign else dot) = dot := by decide
  simp only [currentDateTime, List.map_append, List.map_cons, map_padded, h1, h2, h3, if_true,
    stampText, List.append_assoc, List.cons_append]

/-- Everything before the extension. -/
def nameBody (i : NameInfo) (now : Stamp) : Bytes :=
  (if i.topology = .spherical then 83#8 else 84#8) :: (decimalInt i.dimension ++
    minusSign :: (decimalInt i.timeslices ++ minusSign :: (decimalInt i.simplices ++
      minusSign :: 73#8 :: (fixed6 i.radius ++ minusSign :: 82#8 :: (fixed6 i.spacing ++
        minusSign :: stampText now)))))

theorem makeFilename_eq (i : NameInfo) (now : Stamp) :
    makeFilename i now = nameBody i now ++ ascii ".off" := by
  have h1 : ascii "-" = [minusSign] := by decide +kernel
  have h2 : ascii "-I" = [minusSign, 73#8] := by decide +kernel
  have h3 : ascii "-R" = [minusSign, 82#8] := by decide +kernel
  have h4 : (if i.topology = .spherical then ascii "S" else ascii "T") =
      [if i.topology = .spherical then 83#8 else 84#8] := by split <;> decide +kernel
  simp only [makeFilename, map_stamp, h1, h2, h3, h4, nameBody, List.append_assoc, List.cons_append,
    List.nil_append]

theorem slash_notMem_padded (k n : ℕ) : slash ∉ padded k n := fun h => by
  have := padded_digits h; revert this; decide
theorem slash_notMem_decimal (n : ℕ) : slash ∉ decimal n := fun h => by
  have : IsDigit slash := mem_decimal h; revert this; decide
theorem slash_notMem_decimalInt (n : ℤ) : slash ∉ decimalInt n := fun h => by
  rcases mem_decimalInt h with h | h
  · exact absurd h (by decide)
  · have : IsDigit slash := h; revert this; decide
theorem slash_notMem_fixed6 (q : ℚ) : slash ∉ fixed6 q := by
  have h1 : slash ≠ dot := by decide
  have h2 : slash ≠ minusSign := by decide
  unfold fixed6
  dsimp only
  split <;> simp [slash_notMem_decimal, slash_notMem_padded, h1, h2]

theorem slash_notMem_body (i : NameInfo) (now : Stamp) : slash ∉ nameBody i now := by
  have h1 : slash ≠ dot := by decide
  have h2 : slash ≠ minusSign := by decide
  have h3 : slash ∉ ascii "UTC" := by decide +kernel
  have h4 : slash ≠ (if i.topology = .spherical then 83#8 else 84#8) := by split <;> decide
  have h5 : slash ≠ 73#8 := by decide
  have h6 : slash ≠ 82#8 := by decide
  simp [nameBody, stampText, slash_notMem_decimalInt, slash_notMem_padded, slash_notMem_fixed6, h1,
    h2, h3, h4, h5, h6]

/-- Path operations on a name without directories that ends in `.off`. -/
theorem path_parts {b : Bytes} (hb : b ≠ []) (hs : slash ∉ b) :
    parentPath (b ++ ascii ".off") = [] ∧ stem (b ++ ascii ".off") = b ∧
      extension (b ++ ascii ".off") = ascii ".off" := by
  have e : ascii ".off" = dot :: [111#8, 102#8, 102#8] := by decide +kernel
  have hs' : slash ∉ b ++ ascii ".off" := by
    rw [List.mem_append, not_or]; exact ⟨hs, by decide +kernel⟩
  have h1 : splitLast slash (b ++ ascii ".off") = none := splitLast_eq_none.2 hs'
  have h2 : splitLast dot (b ++ ascii ".off") = some (b, [111#8, 102#8, 102#8]) :=
    splitLast_eq_some.2 ⟨by rw [e], by decide⟩
  simp only [parentPath, stem, extension, lastComponent, h1, Option.map_none, Option.getD_none, h2,
    hb, if_false, true_and]
  exact e.symm

theorem nameBody_ne_nil (i : NameInfo) (now : Stamp) : nameBody i now ≠ [] := by simp [nameBody]

theorem makeFilenameSeed_eq (i : NameInfo) (seed : ℕ) (now : Stamp) :
    makeFilenameSeed i seed now =
      (nameBody i now ++ ascii "-seed-" ++ decimal seed) ++ ascii ".off" := by
  obtain ⟨h1, h2, h3⟩ := path_parts (nameBody_ne_nil i now) (slash_notMem_body i now)
  simp only [makeFilenameSeed, makeFilename_eq, h1, h2, h3, joinPath, if_true]

theorem makeFilenamePass_eq (i : NameInfo) (seed : ℕ) (pass : ℤ) (now : Stamp) :
    makeFilenamePass i seed pass now =
      (nameBody i now ++ ascii "-seed-" ++ decimal seed ++ ascii "-pass-" ++ decimalInt pass) ++
        ascii ".off" := by
  obtain ⟨h1, h2, h3⟩ := path_parts (b := nameBody i now ++ ascii "-seed-" ++ decimal seed)
    (by simp [nameBody_ne_nil]) (by
      simp only [List.mem_append, not_or]
      exact ⟨⟨slash_notMem_body i now, by decide +kernel⟩, slash_notMem_decimal _⟩)
  simp only [makeFilenamePass, makeFilenameSeed_eq, h1, h2, h3, joinPath, if_true]

theorem body_delimited {i j : NameInfo} {s s' : Stamp} {r r' : Bytes}
    (h : nameBody i s ++ r = nameBody j s' ++ r') : SameUpToMillionths i j ∧ s = s' ∧ r = r' := by
  have hm := not_digit_minus
  have hd := not_digit_dot
  simp only [nameBody, List.cons_append, List.append_assoc, List.cons.injEq, stampText] at h
  obtain ⟨h0, h⟩ := h
  obtain ⟨h1, -, h⟩ := decimalInt_delimited hm hm h
  obtain ⟨h2, -, h⟩ := decimalInt_delimited hm hm h
  obtain ⟨h3, -, h⟩ := decimalInt_delimited hm hm h
  rw [List.cons.injEq] at h
  obtain ⟨s4, h4, -, h⟩ := fixed6_delimited hm hm h.2
  rw [List.cons.injEq] at h
  obtain ⟨s5, h5, -, h⟩ := fixed6_delimited hm hm h.2
  obtain ⟨h6, -, h⟩ := padded_delimited hm hm h
  obtain ⟨h7, -, h⟩ := padded_delimited hm hm h
  obtain ⟨h8, -, h⟩ := padded_delimited hd hd h
  obtain ⟨h9, -, h⟩ := padded_delimited hm hm h
  obtain ⟨h10, -, h⟩ := padded_delimited hm hm h
  have e : ascii "UTC" = [85#8, 84#8, 67#8] := by decide +kernel
  rw [e] at h
  simp only [List.cons_append, List.nil_append] at h
  obtain ⟨h11, -, h⟩ := padded_delimited (by decide) (by decide) h
  refine ⟨⟨?_, h1, h3, h2, close_of_millionths s4 h4, close_of_millionths s5 h5⟩, ?_, ?_⟩
  · cases ht : i.topology <;> cases ht' : j.topology <;> simp_all
  · cases s; cases s'; simp_all
  · simpa using h

end CDT
