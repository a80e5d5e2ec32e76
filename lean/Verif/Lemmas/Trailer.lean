import Verif.Lemmas.Text
import Verif.Spec.Trailer
import Mathlib.Data.List.Perm.Subperm
import Mathlib.Data.List.Nodup
import Mathlib.Tactic.Set

namespace CDT
open Spec

theorem numeralDigits_snoc {v d : ℕ} (hv : 0 < v) (hd : d < 10) :
    numeralDigits 10 (v * 10 + d) = numeralDigits 10 v ++ [d] := by
  have h0 : v * 10 + d ≠ 0 := by omega
  have hv0 : v ≠ 0 := by omega
  unfold numeralDigits
  rw [if_neg h0, if_neg hv0]
  have : Nat.digits 10 (v * 10 + d) = d :: Nat.digits 10 v := by
    have := Nat.digits_add 10 (by omega) d v hd (.inr hv0)
    rw [← this]; congr 1; ring
  rw [this, List.reverse_cons]

theorem numeralDigits_small {d : ℕ} (hd : d < 10) : numeralDigits 10 d = [d] := by
  unfold numeralDigits
  split
  · subst d; rfl
  · rw [Nat.digits_of_lt 10 d (by assumption) hd]; rfl

theorem digits_canonical (ds : List ℕ) (hne : ds ≠ []) (hlt : ∀ d ∈ ds, d < 10) :
    ∃ k, ds = List.replicate k 0 ++ numeralDigits 10 (digitsValue 10 ds) := by
  induction ds using List.reverseRecOn with
  | nil => exact absurd rfl hne
  | append_singleton l d ih =>
    have hd : d < 10 := hlt d (by simp)
    have hval : digitsValue 10 (l ++ [d]) = digitsValue 10 l * 10 + d := by
      simp [digitsValue, List.foldl_append]
    by_cases hl : l = []
    · subst hl
      refine ⟨0, ?_⟩
      rw [hval]; simp [digitsValue, numeralDigits_small hd]
    · obtain ⟨k, hk⟩ := ih hl (fun x hx => hlt x (by simp [hx]))
      rw [hval]
      by_cases hv : digitsValue 10 l = 0
      · rw [hv] at hk ⊢
        refine ⟨k + 1, ?_⟩
        rw [Nat.zero_mul, Nat.zero_add, numeralDigits_small hd]
        conv_lhs => rw [hk]
        simp [numeralDigits, List.replicate_succ']
      · refine ⟨k, ?_⟩
        rw [numeralDigits_snoc (by omega) hd, ← List.append_assoc, ← hk]

theorem digitValue_ten {b : Byte} {d : ℕ} (h : digitValue 10 b = some d) :
    d < 10 ∧ b = digitByte d := by
  unfold digitValue at h
  simp only at h
  have hb := b.isLt
  split at h
  · simp only [Option.bind_some] at h
    split at h
    · simp only [Option.some.injEq] at h
      refine ⟨by omega, ?_⟩
      apply BitVec.eq_of_toNat_eq
      rw [digitByte_toNat (by omega), if_pos (by omega)]; omega
    · simp at h
  · split at h
    · simp only [Option.bind_some] at h
      split at h
      · omega
      · simp at h
    · split at h
      · simp only [Option.bind_some] at h
        split at h
        · omega
        · simp at h
      · simp at h

theorem mapM_digitValue_ten {t : Bytes} {ds : List ℕ} (h : t.mapM (digitValue 10) = some ds) :
    t = ds.map digitByte ∧ ∀ d ∈ ds, d < 10 := by
  induction t generalizing ds with
  | nil => simp at h; subst h; simp
  | cons b t ih =>
    rw [List.mapM_cons] at h
    cases hb : digitValue 10 b with
    | none => rw [hb] at h; simp at h
    | some d =>
      cases ht : t.mapM (digitValue 10) with
      | none => rw [hb, ht] at h; simp at h
      | some ds' =>
        rw [hb, ht] at h
        simp only [Option.pure_def, Option.bind_eq_bind, Option.bind_some,
          Option.some.injEq] at h
        subst h
        obtain ⟨e1, e2⟩ := ih ht
        obtain ⟨e3, e4⟩ := digitValue_ten hb
        refine ⟨by rw [List.map_cons, ← e1, ← e4], ?_⟩
        intro x hx
        rcases List.mem_cons.1 hx with rfl | hx
        · exact e3
        · exact e2 x hx

theorem wholeNumeral_ten_iff {t : Bytes} {n : ℕ} :
    wholeNumeral 10 t = some n ↔ ∃ k, t = List.replicate k (digitByte 0) ++ decimal n := by
  constructor
  · intro h
    unfold wholeNumeral at h
    split at h
    · simp at h
    · rename_i hne
      obtain ⟨ds, hds, rfl⟩ := Option.map_eq_some_iff.1 h
      obtain ⟨e, hlt⟩ := mapM_digitValue_ten hds
      have hne' : ds ≠ [] := by rintro rfl; subst e; simp at hne
      obtain ⟨k, hk⟩ := digits_canonical ds hne' hlt
      refine ⟨k, ?_⟩
      rw [e]
      conv_lhs => rw [hk]
      simp [decimal, numeral_eq]
  · rintro ⟨k, rfl⟩
    have e : List.replicate k (digitByte 0) ++ decimal n =
        (List.replicate k 0 ++ numeralDigits 10 n).map digitByte := by
      simp [decimal, numeral_eq]
    unfold wholeNumeral
    rw [if_neg (by simp [decimal_ne_nil]), e, mapM_digitValue (by omega)]
    · simp [digitsValue_zeros, numeralDigits_value]
    · intro d hd
      rcases List.mem_append.1 hd with hd | hd
      · have := List.eq_of_mem_replicate hd; omega
      · exact numeralDigits_lt (by omega) n d hd

theorem parseUnsigned_iff {t : Bytes} {n : ℕ} : parseUnsigned 10 t = some n ↔ NatText t n := by
  unfold parseUnsigned NatText
  rw [Option.bind_eq_some_iff]
  constructor
  · rintro ⟨m, hm, h⟩
    split at h
    · simp only [Option.some.injEq] at h; subst h
      exact ⟨by assumption, wholeNumeral_ten_iff.1 hm⟩
    · simp at h
  · rintro ⟨hlt, h⟩
    exact ⟨n, wholeNumeral_ten_iff.2 h, by rw [if_pos hlt]⟩

theorem mem_padded {k n : ℕ} {b : Byte} (h : b ∈ List.replicate k (digitByte 0) ++ decimal n) :
    48 ≤ b.toNat ∧ b.toNat ≤ 57 := by
  rcases List.mem_append.1 h with h | h
  · rw [List.eq_of_mem_replicate h]; decide
  · exact mem_decimal h

theorem parseInt_iff {t : Bytes} {i : ℤ} : parseInt t = some i ↔ IntText t i := by
  unfold IntText
  cases t with
  | nil =>
    simp only [parseInt, reduceCtorEq, false_iff]
    rintro ⟨_, k, ⟨_, h⟩ | ⟨_, h⟩⟩
    · have := congrArg List.length h
      have := List.length_pos_iff.2 (decimal_ne_nil i.natAbs)
      simp at *; omega
    · simp at h
  | cons b t =>
    by_cases hb : b = minusSign
    · subst hb
      simp only [parseInt, if_true]
      rw [Option.bind_eq_some_iff]
      constructor
      · rintro ⟨m, hm, h⟩
        obtain ⟨k, hk⟩ := wholeNumeral_ten_iff.1 hm
        split at h
        · simp only [Option.some.injEq] at h
          subst h
          refine ⟨by omega, k, .inr ⟨by omega, ?_⟩⟩
          rw [hk]; simp
        · simp at h
      · rintro ⟨hr, k, ⟨_, h⟩ | ⟨h0, h⟩⟩
        · have : minusSign ∈ List.replicate k (digitByte 0) ++ decimal i.natAbs := by
            rw [← h]; simp
          have := mem_padded this
          simp [minusSign] at this
        · simp only [List.cons.injEq, true_and] at h
          refine ⟨i.natAbs, wholeNumeral_ten_iff.2 ⟨k, h⟩, ?_⟩
          rw [if_pos (by omega)]; congr 1; omega
    · simp only [parseInt, if_neg hb]
      rw [Option.bind_eq_some_iff]
      constructor
      · rintro ⟨m, hm, h⟩
        obtain ⟨k, hk⟩ := wholeNumeral_ten_iff.1 hm
        split at h
        · simp only [Option.some.injEq] at h
          subst h
          exact ⟨by omega, k, .inl ⟨by omega, by rw [hk]; simp⟩⟩
        · simp at h
      · rintro ⟨hr, k, ⟨h0, h⟩ | ⟨h0, h⟩⟩
        · refine ⟨i.natAbs, wholeNumeral_ten_iff.2 ⟨k, h⟩, ?_⟩
          rw [if_pos (by omega)]; congr 1; omega
        · simp only [List.cons.injEq] at h
          exact absurd h.1 hb

theorem NatText.bar_notMem {t : Bytes} {n : ℕ} (h : NatText t n) : bar ∉ t := by
  obtain ⟨_, k, rfl⟩ := h
  intro hb; have := mem_padded hb; simp [bar] at this

theorem IntText.notMem {t : Bytes} {i : ℤ} {c : Byte} (hc : c ≠ minusSign)
    (hc' : ¬(48 ≤ c.toNat ∧ c.toNat ≤ 57)) (h : IntText t i) : c ∉ t := by
  obtain ⟨_, k, ⟨_, rfl⟩ | ⟨_, rfl⟩⟩ := h
  · intro hb; exact hc' (mem_padded hb)
  · intro hb
    rcases List.mem_cons.1 hb with hb | hb
    · exact hc hb
    · exact hc' (mem_padded hb)

theorem NatText.ne_nil {t : Bytes} {n : ℕ} (h : NatText t n) : t ≠ [] := by
  obtain ⟨_, k, rfl⟩ := h; simp [decimal_ne_nil]

theorem IntText.ne_nil {t : Bytes} {i : ℤ} (h : IntText t i) : t ≠ [] := by
  obtain ⟨_, k, ⟨_, rfl⟩ | ⟨_, rfl⟩⟩ := h
  · simp [decimal_ne_nil]
  · simp

theorem natText_decimal {n : ℕ} (h : n < 2 ^ 64) : NatText (decimal n) n := ⟨h, 0, by simp⟩

theorem intText_decimalInt {i : ℤ} (h : -2 ^ 31 ≤ i ∧ i < 2 ^ 31) : IntText (decimalInt i) i :=
  parseInt_iff.1 (parseInt_decimalInt h)

theorem NatText.unique {t : Bytes} {m n : ℕ} (h : NatText t m) (h' : NatText t n) : m = n := by
  rw [← parseUnsigned_iff] at h h'; rw [h] at h'; exact Option.some.inj h'

/-! ### `Except` plumbing -/

theorem orFs_ok {α : Type} {o : Option α} {a : α} : orFilesystemError o = .ok a ↔ o = some a := by
  cases o <;> simp [orFilesystemError]

theorem bind_ok {α β : Type} {x : Except Exc α} {f : α → Except Exc β} {b : β} :
    (x >>= f) = .ok b ↔ ∃ a, x = .ok a ∧ f a = .ok b := by
  cases x <;> simp [bind, Except.bind]

theorem orFs_bind_ok {α β : Type} {o : Option α} {f : α → Except Exc β} {b : β} :
    (orFilesystemError o >>= f) = .ok b ↔ ∃ a, o = some a ∧ f a = .ok b := by
  rw [bind_ok]; simp only [orFs_ok]

theorem require_bind_ok {β : Type} {c : Bool} {f : PUnit → Except Exc β} {b : β} :
    (require c >>= f) = .ok b ↔ c = true ∧ f .unit = .ok b := by
  cases c <;> simp [require, bind, Except.bind]

theorem getline_iff {t l r : Bytes} : getline t = some (l, r) ↔ FirstLine t l r := by
  unfold FirstLine
  constructor
  · intro h
    unfold getline at h
    split at h
    · simp at h
    · rename_i hne
      simp only [Option.some.injEq, Prod.mk.injEq] at h
      obtain ⟨rfl, rfl⟩ := h
      refine ⟨?_, ?_⟩
      · intro hm
        have h := List.all_takeWhile (l := t) (p := fun x => decide (x ≠ newline))
        rw [List.all_eq_true] at h
        have := h _ hm
        simp at this
      · cases hd : t.dropWhile (· ≠ newline) with
        | nil =>
          right
          have e := List.takeWhile_append_dropWhile (p := fun x => decide (x ≠ newline)) (l := t)
          rw [hd, List.append_nil] at e
          refine ⟨e.symm, ?_, rfl⟩
          rw [e]
          intro h0; subst h0; simp at hne
        | cons a as =>
          left
          have ha : a = newline := by
            have := List.head?_dropWhile_not (p := fun x => decide (x ≠ newline)) (l := t)
            rw [hd] at this
            simpa using this
          have e := List.takeWhile_append_dropWhile (p := fun x => decide (x ≠ newline)) (l := t)
          rw [hd, ha] at e
          simpa using e.symm
  · rintro ⟨hl, rfl | ⟨rfl, hne, rfl⟩⟩
    · exact getline_line hl r
    · have h12 : t.takeWhile (· ≠ newline) = t ∧ t.dropWhile (· ≠ newline) = [] := by
        clear hne
        induction t with
        | nil => simp
        | cons a t ih =>
          have ha : a ≠ newline := fun e => hl (by simp [e])
          have := ih (fun e => hl (by simp [e]))
          simp only [List.takeWhile_cons, List.dropWhile_cons, ha, ne_eq, not_false_eq_true,
            decide_true, if_true]
          simpa using this
      obtain ⟨h1, h2⟩ := h12
      unfold getline
      rw [if_neg (by simp [hne]), h1, h2]
      rfl

theorem FirstLine.unique {t l r l' r' : Bytes} (h : FirstLine t l r) (h' : FirstLine t l' r') :
    l = l' ∧ r = r' := by
  rw [← getline_iff] at h h'
  rw [h] at h'
  simpa using h'

theorem BeginsWithLines.append {t : Bytes} {l₁ l₂ : List Bytes} {r : Bytes} :
    BeginsWithLines t (l₁ ++ l₂) r ↔ ∃ m, BeginsWithLines t l₁ m ∧ BeginsWithLines m l₂ r := by
  induction l₁ generalizing t with
  | nil => simp [BeginsWithLines]
  | cons l l₁ ih =>
    simp only [List.cons_append, BeginsWithLines, ih]
    constructor
    · rintro ⟨m, h, m', h1, h2⟩; exact ⟨m', ⟨m, h, h1⟩, h2⟩
    · rintro ⟨m', ⟨m, h, h1⟩, h2⟩; exact ⟨m, h, m', h1, h2⟩

theorem BeginsWithLines.unique {t : Bytes} {l l' : List Bytes} {r r' : Bytes}
    (h : BeginsWithLines t l r) (h' : BeginsWithLines t l' r') (hlen : l.length = l'.length) :
    l = l' ∧ r = r' := by
  induction l generalizing t l' with
  | nil =>
    cases l' with
    | nil => simp [BeginsWithLines] at h h'; exact ⟨rfl, h ▸ h'⟩
    | cons _ _ => simp at hlen
  | cons a l ih =>
    cases l' with
    | nil => simp at hlen
    | cons b l' =>
      obtain ⟨m, h1, h2⟩ := h
      obtain ⟨m', h1', h2'⟩ := h'
      obtain ⟨rfl, rfl⟩ := FirstLine.unique h1 h1'
      obtain ⟨rfl, rfl⟩ := ih h2 h2' (by simpa using hlen)
      exact ⟨rfl, rfl⟩

/-! ### The record reader -/

theorem parseRecord_key {pfx line : Bytes} {i : ℕ} {v : ℤ} :
    (∃ key, parseRecord pfx line = .ok (key, v) ∧ parseUnsigned 10 key = some i) ↔
      RecordLine pfx line i v := by
  unfold RecordLine
  constructor
  · rintro ⟨key, h, hk⟩
    unfold parseRecord at h
    simp only [orFs_bind_ok, require_bind_ok] at h
    obtain ⟨record, hrec, ⟨k, value⟩, hsp, hne, w, hw, h⟩ := h
    simp only [pure, Except.pure, Except.ok.injEq, Prod.mk.injEq] at h
    obtain ⟨rfl, rfl⟩ := h
    refine ⟨k, value, ?_, parseUnsigned_iff.1 hk, parseInt_iff.1 hw⟩
    rw [stripPrefix_eq_some.1 hrec, (splitLast_eq_some.1 hsp).1, List.append_assoc]
  · rintro ⟨key, value, rfl, hk, hv⟩
    refine ⟨key, ?_, parseUnsigned_iff.2 hk⟩
    unfold parseRecord
    simp only [orFs_bind_ok, require_bind_ok]
    refine ⟨key ++ bar :: value, stripPrefix_eq_some.2 (by simp), (key, value),
      splitLast_eq_some.2 ⟨rfl, IntText.notMem (by decide) (by decide) hv⟩, ?_, v, parseInt_iff.2 hv, rfl⟩
    simp [NatText.ne_nil hk, IntText.ne_nil hv]

theorem parseCountLine_iff {pfx line : Bytes} {n : ℕ} :
    parseCountLine pfx line = .ok n ↔ CountLine pfx line n := by
  unfold parseCountLine CountLine
  simp only [orFs_bind_ok, orFs_ok]
  constructor
  · rintro ⟨t, h, h'⟩
    exact ⟨t, stripPrefix_eq_some.1 h, parseUnsigned_iff.1 h'⟩
  · rintro ⟨t, h, h'⟩
    exact ⟨t, stripPrefix_eq_some.2 h, parseUnsigned_iff.2 h'⟩

/-- Store a sequence of labelled indices. -/
def storeAll (indexed : List (Option ℤ)) (pairs : List (ℕ × ℤ)) : List (Option ℤ) :=
  pairs.foldl (fun a p => a.set p.1 (some p.2)) indexed

theorem storeAll_length (pairs : List (ℕ × ℤ)) (a : List (Option ℤ)) :
    (storeAll a pairs).length = a.length := by
  induction pairs generalizing a with
  | nil => rfl
  | cons p ps ih => simp only [storeAll, List.foldl_cons]; exact (ih _).trans (by simp)

theorem storeAll_notMem (pairs : List (ℕ × ℤ)) (a : List (Option ℤ)) (i : ℕ)
    (h : i ∉ pairs.map Prod.fst) : (storeAll a pairs)[i]? = a[i]? := by
  induction pairs generalizing a with
  | nil => rfl
  | cons p ps ih =>
    simp only [List.map_cons, List.mem_cons, not_or] at h
    simp only [storeAll, List.foldl_cons]
    refine (ih _ h.2).trans ?_
    rw [List.getElem?_set_ne (Ne.symm h.1)]

theorem storeAll_mem (pairs : List (ℕ × ℤ)) (a : List (Option ℤ)) {i : ℕ} {v : ℤ}
    (hn : (pairs.map Prod.fst).Nodup) (hi : i < a.length) (h : (i, v) ∈ pairs) :
    (storeAll a pairs)[i]? = some (some v) := by
  induction pairs generalizing a with
  | nil => simp at h
  | cons p ps ih =>
    simp only [List.map_cons, List.nodup_cons] at hn
    simp only [storeAll, List.foldl_cons]
    rcases List.mem_cons.1 h with h | h
    · subst h
      refine (storeAll_notMem ps _ i hn.1).trans ?_
      simp [hi]
    · exact ih _ hn.2 (by simpa using hi) h

theorem readIndexedLoop_iff {pfx : Bytes} {count : ℕ} (n : ℕ) {a b : List (Option ℤ)}
    (ha : a.length = count) {input rest : Bytes} :
    readIndexedLoop pfx count n a input = .ok (b, rest) ↔
      ∃ (lines : List Bytes) (pairs : List (ℕ × ℤ)), lines.length = n ∧
        BeginsWithLines input lines rest ∧
        List.Forall₂ (fun line (p : ℕ × ℤ) => RecordLine pfx line p.1 p.2) lines pairs ∧
        (pairs.map Prod.fst).Nodup ∧
        (∀ p ∈ pairs, p.1 < count ∧ (a[p.1]?.join).isSome = false) ∧ b = storeAll a pairs := by
  induction n generalizing a input with
  | zero =>
    simp only [readIndexedLoop, Except.ok.injEq, Prod.mk.injEq]
    constructor
    · rintro ⟨rfl, rfl⟩
      exact ⟨[], [], rfl, rfl, .nil, .nil, by simp, rfl⟩
    · rintro ⟨lines, pairs, hl, hb, hf, -, -, rfl⟩
      have : lines = [] := List.length_eq_zero_iff.1 hl
      subst this
      cases hf
      exact ⟨rfl, hb⟩
  | succ n ih =>
    simp only [readIndexedLoop, orFs_bind_ok, bind_ok (α := Bytes × ℤ), require_bind_ok]
    constructor
    · rintro ⟨⟨line, more⟩, hg, ⟨key, v⟩, hr, i, hi, hguard, hrec⟩
      obtain ⟨lines, pairs, hl, hb, hf, hnd, hok, rfl⟩ := (ih (by simpa using ha)).1 hrec
      simp only [Bool.not_eq_true', Bool.or_eq_false_iff, decide_eq_false_iff_not] at hguard
      refine ⟨line :: lines, (i, v) :: pairs, by simp [hl], ⟨more, getline_iff.1 hg, hb⟩,
        .cons (parseRecord_key.1 ⟨key, hr, hi⟩) hf, ?_, ?_, rfl⟩
      · simp only [List.map_cons, List.nodup_cons]
        refine ⟨?_, hnd⟩
        intro hmem
        obtain ⟨p, hp, rfl⟩ := List.mem_map.1 hmem
        have := (hok p hp).2
        rw [List.getElem?_set_self (by omega)] at this
        simp at this
      · intro p hp
        rcases List.mem_cons.1 hp with rfl | hp
        · exact ⟨by omega, hguard.2⟩
        · refine ⟨(hok p hp).1, ?_⟩
          have h2 := (hok p hp).2
          by_cases e : i = p.1
          · rw [← e]; exact hguard.2
          · rwa [List.getElem?_set_ne e] at h2
    · rintro ⟨lines, pairs, hl, hb, hf, hnd, hok, rfl⟩
      cases hf with
      | nil => simp at hl
      | @cons line p lines pairs hr hf =>
        obtain ⟨more, h1, h2⟩ := hb
        obtain ⟨key, hk, hk'⟩ := parseRecord_key.2 hr
        simp only [List.map_cons, List.nodup_cons] at hnd
        refine ⟨(line, more), getline_iff.2 h1, (key, p.2), hk, p.1, hk', ?_, ?_⟩
        · have := hok p (by simp)
          simp only [Bool.not_eq_true', Bool.or_eq_false_iff, decide_eq_false_iff_not]
          exact ⟨by omega, this.2⟩
        · refine (ih (by simpa using ha)).2 ⟨lines, pairs, by simpa using hl, h2, hf, hnd.2, ?_, rfl⟩
          intro q hq
          have hne : p.1 ≠ q.1 := fun e => hnd.1 (e ▸ List.mem_map_of_mem hq)
          rw [List.getElem?_set_ne hne]
          exact hok q (by simp [hq])

theorem mapM_id_iff {l : List (Option ℤ)} {vs : List ℤ} :
    l.mapM id = some vs ↔ l = vs.map some := by
  induction l generalizing vs with
  | nil => cases vs <;> simp
  | cons a l ih =>
    rw [List.mapM_cons]
    cases a with
    | none => cases vs <;> simp
    | some v =>
      cases h : l.mapM id with
      | none =>
        cases vs with
        | nil => simp
        | cons w vs =>
          have := ih (vs := vs)
          rw [h] at this
          simp at this ⊢
          exact fun _ => this
      | some us =>
        have e := ih.1 h
        cases vs with
        | nil => simp
        | cons w vs =>
          simp only [id, Option.pure_def, Option.bind_eq_bind, Option.bind_some, Option.some.injEq,
            List.cons.injEq, List.map_cons]
          rw [e]
          exact and_congr_right fun _ =>
            ⟨fun h => by rw [h], fun h => List.map_injective_iff.2 (Option.some_injective _) h⟩

theorem readIndexedInfo_iff {pfx : Bytes} {count : ℕ} {input rest : Bytes} {vs : List ℤ} :
    readIndexedInfo pfx count input = .ok (vs, rest) ↔
      vs.length = count ∧ ∃ lines, BeginsWithLines input lines rest ∧ RecordsOf pfx lines vs := by
  unfold readIndexedInfo
  simp only [bind_ok (α := List (Option ℤ) × Bytes), orFs_bind_ok, Prod.exists]
  constructor
  · rintro ⟨indexed, more, hloop, vals, hvals, h⟩
    simp only [pure, Except.pure, Except.ok.injEq, Prod.mk.injEq] at h
    obtain ⟨rfl, rfl⟩ := h
    obtain ⟨lines, pairs, hl, hb, hf, hnd, hok, rfl⟩ := (readIndexedLoop_iff _ (by simp)).1 hloop
    have e := mapM_id_iff.1 hvals
    have hlen : vals.length = count := by
      have := congrArg List.length e
      rw [storeAll_length] at this
      simpa using this.symm
    refine ⟨hlen, lines, hb, pairs.map Prod.fst, ?_, ?_⟩
    · rw [hlen]
      have hsub : ∀ i ∈ pairs.map Prod.fst, i ∈ List.range count := by
        intro i hi
        obtain ⟨p, hp, rfl⟩ := List.mem_map.1 hi
        exact List.mem_range.2 (hok p hp).1
      have hsp := List.subperm_of_subset hnd hsub
      refine hsp.perm_of_length_le ?_
      have := hf.length_eq
      simp; omega
    · rw [List.forall₂_map_right_iff]
      have hmem : ∀ p ∈ pairs, vals[p.1]? = some p.2 := by
        intro p hp
        have h1 := storeAll_mem pairs (List.replicate count none) hnd (i := p.1) (v := p.2)
          (by simpa using (hok p hp).1) hp
        rw [e, List.getElem?_map] at h1
        simpa using h1
      clear hloop hvals hl hb hnd hok e hlen
      induction hf with
      | nil => exact .nil
      | @cons line p lines pairs hr hf ih =>
        exact .cons ⟨p.2, hmem p (by simp), hr⟩ (ih fun q hq => hmem q (by simp [hq]))
  · rintro ⟨hlen, lines, hb, order, hperm, hf⟩
    -- the labelled indices
    obtain ⟨pairs, hpo, hpf, hpv⟩ : ∃ pairs : List (ℕ × ℤ), pairs.map Prod.fst = order ∧
        List.Forall₂ (fun line (p : ℕ × ℤ) => RecordLine pfx line p.1 p.2) lines pairs ∧
        ∀ p ∈ pairs, vs[p.1]? = some p.2 := by
      clear hperm hb
      induction hf with
      | nil => exact ⟨[], rfl, .nil, by simp⟩
      | @cons line i lines order h hf ih =>
        obtain ⟨pairs, h1, h2, h3⟩ := ih
        obtain ⟨v, hv, hr⟩ := h
        refine ⟨(i, v) :: pairs, by simp [h1], .cons hr h2, ?_⟩
        intro p hp
        rcases List.mem_cons.1 hp with rfl | hp
        · exact hv
        · exact h3 p hp
    subst hpo
    have hnd : (pairs.map Prod.fst).Nodup := hperm.nodup_iff.2 List.nodup_range
    have hok : ∀ p ∈ pairs, p.1 < count := by
      intro p hp
      have := hperm.mem_iff.1 (List.mem_map_of_mem hp)
      simpa [hlen] using this
    have hlines : lines.length = count := by
      have h1 := hpf.length_eq
      have h2 := hperm.length_eq
      simp at h2; omega
    refine ⟨storeAll (List.replicate count none) pairs, rest, ?_, vs, ?_, rfl⟩
    · refine (readIndexedLoop_iff _ (by simp)).2 ⟨lines, pairs, hlines, hb, hpf, hnd, ?_, rfl⟩
      intro p hp
      exact ⟨hok p hp, by simp [hok p hp]⟩
    · apply mapM_id_iff.2
      apply List.ext_getElem?
      intro i
      by_cases hi : i < count
      · have : i ∈ pairs.map Prod.fst := hperm.mem_iff.2 (by simp [hlen, hi])
        obtain ⟨p, hp, rfl⟩ := List.mem_map.1 this
        rw [storeAll_mem pairs _ hnd (v := p.2) (by simpa using hi) hp, List.getElem?_map,
          hpv p hp]
        rfl
      · rw [List.getElem?_eq_none (by rw [storeAll_length]; simp; omega),
          List.getElem?_eq_none (by simp; omega)]

theorem readCausalInfo_iff {nv nc : ℕ} {input rest : Bytes} {info : CausalInfo} :
    readCausalInfo nv nc input = .ok (info, rest) ↔
      info.vertices.length = nv ∧ info.cells.length = nc ∧ TrailerFor input info rest := by
  unfold readCausalInfo TrailerFor
  simp only [orFs_bind_ok, require_bind_ok, bind_ok (α := ℕ), bind_ok (α := List ℤ × Bytes),
    Prod.exists, decide_eq_true_eq, parseCountLine_iff, getline_iff, readIndexedInfo_iff]
  constructor
  · rintro ⟨h0, m0, f0, rfl, l1, m1, f1, n1, c1, rfl, vs, m2, ⟨len1, vl, b1, r1⟩, l2, m3, f2, n2,
      c2, rfl, cs, m4, ⟨len2, cl, b2, r2⟩, h⟩
    simp only [pure, Except.pure, Except.ok.injEq, Prod.mk.injEq] at h
    obtain ⟨rfl, rfl⟩ := h
    refine ⟨len1, len2, l1, vl, l2, cl, ?_, by simpa [len1] using c1, r1, by simpa [len2] using c2,
      r2⟩
    refine ⟨m0, f0, m1, f1, ?_⟩
    exact BeginsWithLines.append.2 ⟨m2, b1, m3, f2, b2⟩
  · rintro ⟨rfl, rfl, l1, vl, l2, cl, hb, c1, r1, c2, r2⟩
    obtain ⟨m0, f0, m1, f1, hb⟩ := hb
    obtain ⟨m2, b1, m3, f2, b2⟩ := BeginsWithLines.append.1 hb
    exact ⟨_, m0, f0, rfl, l1, m1, f1, _, c1, rfl, _, m2, ⟨rfl, vl, b1, r1⟩, l2, m3, f2, _, c2, rfl,
      _, rest, ⟨rfl, cl, b2, r2⟩, rfl⟩

/-! ### The writer -/

/-- The lines `infoLines` produces. -/
def infoLineList (pfx : Bytes) (i : ℕ) (vs : List ℤ) : List Bytes :=
  (vs.zipIdx i).map fun p => infoLine pfx p.2 p.1

theorem newline_notMem_infoLine {pfx : Bytes} (hp : newline ∉ pfx) (i : ℕ) (v : ℤ) :
    newline ∉ infoLine pfx i v := by
  unfold infoLine
  simp only [List.mem_append, List.mem_cons, not_or]
  exact ⟨⟨hp, newline_notMem_decimal i⟩, by decide, newline_notMem_decimalInt v⟩

theorem beginsWith_infoLines {pfx : Bytes} (hp : newline ∉ pfx) (i : ℕ) (vs : List ℤ)
    (rest : Bytes) : BeginsWithLines (infoLines pfx i vs ++ rest) (infoLineList pfx i vs) rest := by
  induction vs generalizing i with
  | nil => rfl
  | cons v vs ih =>
    refine ⟨infoLines pfx (i + 1) vs ++ rest, ⟨newline_notMem_infoLine hp i v, .inl ?_⟩, ih (i + 1)⟩
    simp [infoLines]

theorem recordsOf_infoLines {pfx : Bytes} {vs : List ℤ} (hlen : vs.length < 2 ^ 64)
    (hv : ∀ v ∈ vs, -2 ^ 31 ≤ v ∧ v < 2 ^ 31) : RecordsOf pfx (infoLineList pfx 0 vs) vs := by
  refine ⟨List.range vs.length, .refl _, ?_⟩
  rw [List.forall₂_iff_get]
  refine ⟨by simp [infoLineList], ?_⟩
  intro i h1 h2
  have hi : i < vs.length := by simpa using h2
  refine ⟨vs[i], by simp, decimal i, decimalInt vs[i], ?_, ?_, ?_⟩
  · simp [infoLineList, infoLine]
  · simpa using natText_decimal (n := i) (by omega)
  · exact intText_decimalInt (hv _ (List.getElem_mem hi))

theorem skipSpace_writeCausalInfo (info : CausalInfo) (rest : Bytes) :
    newline :: skipSpace (writeCausalInfo info ++ rest) = writeCausalInfo info ++ rest := by
  unfold writeCausalInfo skipSpace
  simp only [List.cons_append, List.dropWhile_cons]
  have h1 : isSpace newline = true := by decide
  simp only [h1, if_true]
  congr 1
theorem RecordLine.unique {pfx line : Bytes} {i j : ℕ} {v w : ℤ} (h : RecordLine pfx line i v)
    (h' : RecordLine pfx line j w) : i = j ∧ v = w := by
  obtain ⟨k, hk, hk'⟩ := parseRecord_key.2 h
  obtain ⟨k2, hk2, hk2'⟩ := parseRecord_key.2 h'
  rw [hk] at hk2
  simp only [Except.ok.injEq, Prod.mk.injEq] at hk2
  obtain ⟨rfl, rfl⟩ := hk2
  rw [hk'] at hk2'
  exact ⟨Option.some.inj hk2', rfl⟩

theorem CountLine.unique {pfx line : Bytes} {i j : ℕ} (h : CountLine pfx line i)
    (h' : CountLine pfx line j) : i = j := by
  rw [← parseCountLine_iff] at h h'; rw [h] at h'; simpa using h'

/-- Only `filesystem_error` is thrown. -/
def FsOnly {α : Type} (x : Except Exc α) : Prop := ∀ e, x = .error e → e = .filesystemError

theorem fsOnly_orFs {α : Type} (o : Option α) : FsOnly (orFilesystemError o) := by
  intro e h; cases o <;> simp_all [orFilesystemError]

theorem fsOnly_require (c : Bool) : FsOnly (require c) := by
  intro e h; cases c <;> simp_all [require]

theorem fsOnly_pure {α : Type} (a : α) : FsOnly (pure a : Except Exc α) := by
  intro e h; simp [pure, Except.pure] at h

theorem FsOnly.bind {α β : Type} {x : Except Exc α} {f : α → Except Exc β} (hx : FsOnly x)
    (hf : ∀ a, FsOnly (f a)) : FsOnly (x >>= f) := by
  intro e h
  cases x with
  | error e' => simp [Bind.bind, Except.bind] at h; subst h; exact hx e' rfl
  | ok a => exact hf a e h

theorem fsOnly_parseRecord (p l : Bytes) : FsOnly (parseRecord p l) :=
  (fsOnly_orFs _).bind fun _ => (fsOnly_orFs _).bind fun _ => (fsOnly_require _).bind fun _ =>
    (fsOnly_orFs _).bind fun _ => fsOnly_pure _

theorem fsOnly_loop (p : Bytes) (count n : ℕ) (a : List (Option ℤ)) (input : Bytes) :
    FsOnly (readIndexedLoop p count n a input) := by
  induction n generalizing a input with
  | zero => exact fsOnly_pure _
  | succ n ih =>
    exact (fsOnly_orFs _).bind fun _ => (fsOnly_parseRecord _ _).bind fun _ =>
      (fsOnly_orFs _).bind fun _ => (fsOnly_require _).bind fun _ => ih _ _

theorem fsOnly_indexed (p : Bytes) (n : ℕ) (input : Bytes) : FsOnly (readIndexedInfo p n input) :=
  (fsOnly_loop _ _ _ _ _).bind fun _ => (fsOnly_orFs _).bind fun _ => fsOnly_pure _

theorem fsOnly_causal (nv nc : ℕ) (input : Bytes) : FsOnly (readCausalInfo nv nc input) :=
  (fsOnly_orFs _).bind fun _ => (fsOnly_require _).bind fun _ => (fsOnly_orFs _).bind fun _ =>
    ((fsOnly_orFs _).bind fun _ => fsOnly_orFs _).bind fun _ => (fsOnly_require _).bind fun _ =>
      (fsOnly_indexed _ _ _).bind fun _ => (fsOnly_orFs _).bind fun _ =>
        ((fsOnly_orFs _).bind fun _ => fsOnly_orFs _).bind fun _ => (fsOnly_require _).bind fun _ =>
          (fsOnly_indexed _ _ _).bind fun _ => fsOnly_pure _

theorem trailerFor_write {info : CausalInfo} (hl : Labels32 info)
    (hv : info.vertices.length < 2 ^ 64) (hc : info.cells.length < 2 ^ 64) (rest : Bytes) :
    TrailerFor (skipSpace (writeCausalInfo info ++ rest)) info rest := by
  refine ⟨ascii "vertices=" ++ decimal info.vertices.length,
    infoLineList (ascii "v=") 0 info.vertices, ascii "cells=" ++ decimal info.cells.length,
    infoLineList (ascii "c=") 0 info.cells, ?_, ⟨_, rfl, natText_decimal hv⟩,
    recordsOf_infoLines hv hl.1, ⟨_, rfl, natText_decimal hc⟩, recordsOf_infoLines hc hl.2⟩
  have e := skipSpace_writeCausalInfo info rest
  have e2 : skipSpace (writeCausalInfo info ++ rest) = (writeCausalInfo info ++ rest).tail := by
    rw [← e]; rfl
  rw [e2]
  set t4 := infoLines (ascii "c=") 0 info.cells ++ rest with h4
  set t3 := (ascii "cells=" ++ decimal info.cells.length) ++ newline :: t4 with h3
  set t2 := infoLines (ascii "v=") 0 info.vertices ++ t3 with h2
  set t1 := (ascii "vertices=" ++ decimal info.vertices.length) ++ newline :: t2 with h1
  have e3 : (writeCausalInfo info ++ rest).tail = causalHeader ++ newline :: t1 := by
    simp [writeCausalInfo, h1, h2, h3, h4]
  rw [e3]
  have n1 : newline ∉ ascii "vertices=" ++ decimal info.vertices.length := by
    simp only [List.mem_append, not_or]
    exact ⟨by decide +kernel, newline_notMem_decimal _⟩
  have n2 : newline ∉ ascii "cells=" ++ decimal info.cells.length := by
    simp only [List.mem_append, not_or]
    exact ⟨by decide +kernel, newline_notMem_decimal _⟩
  exact ⟨t1, ⟨by decide +kernel, .inl rfl⟩, t2, ⟨n1, .inl rfl⟩, BeginsWithLines.append.2
    ⟨t3, beginsWith_infoLines (by decide +kernel) 0 info.vertices _, t4, ⟨n2, .inl rfl⟩,
      beginsWith_infoLines (by decide +kernel) 0 info.cells rest⟩⟩

end CDT
