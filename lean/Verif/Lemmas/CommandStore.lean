import Verif.Lemmas.CommandLine
/- Lemmas for C104: the values. -/
namespace CDT
open Spec

theorem digits_iff {t : Bytes} {n : ℕ} : Digits t n ↔ wholeNumeral 10 t = some n := wholeNumeral_ten_iff.symm

theorem not_digits_minus {d : Bytes} {n : ℕ} : ¬Digits (minusSign :: d) n := by
  rw [digits_iff]
  simp [wholeNumeral, minusSign, digitValue]

theorem not_digits_plus {d : Bytes} {n : ℕ} : ¬Digits (43#8 :: d) n := by
  rw [digits_iff]
  simp [wholeNumeral, digitValue]

theorem not_digits_nil {n : ℕ} : ¬Digits [] n := by
  rw [digits_iff]
  simp [wholeNumeral]

/-- The unsigned part of a text. -/
theorem unsigned_iff {b : Byte} {rest : Bytes} (hb : b ≠ minusSign) {n : ℕ} :
    wholeNumeral 10 (if b = 43#8 then rest else b :: rest) = some n ↔
      Digits (b :: rest) n ∨ ∃ d, b :: rest = 43#8 :: d ∧ Digits d n := by
  rw [← digits_iff]
  by_cases h : b = 43#8
  · subst h
    simp [not_digits_plus]
  · simp [h]

theorem castInt64_iff {t : Bytes} {z : ℤ} : castInt64 t = some z ↔ WritesInteger t z := by
  unfold castInt64 WritesInteger
  cases t with
  | nil => simp [not_digits_nil]
  | cons b rest =>
    by_cases hb : b = minusSign
    · subst hb
      have h43 : ∀ d, minusSign :: rest ≠ 43#8 :: d := by intro d; simp [minusSign]
      simp only [if_true, Option.bind_eq_some_iff, ← digits_iff]
      constructor
      · rintro ⟨n, hn, h⟩
        split at h
        · cases h
          refine ⟨by omega, by omega, n, .inr ⟨rfl, rest, rfl, hn⟩⟩
        · simp at h
      · rintro ⟨h1, h2, n, ⟨rfl, h | ⟨d, h, -⟩⟩ | ⟨rfl, d, h, hd⟩⟩
        · exact absurd h not_digits_minus
        · exact absurd h (h43 d)
        · cases h
          exact ⟨n, hd, by rw [if_pos (by omega)]⟩
    · have hm : ∀ d, b :: rest ≠ minusSign :: d := by intro d h; cases h; exact hb rfl
      simp only [if_neg hb, Option.bind_eq_some_iff, unsigned_iff hb]
      constructor
      · rintro ⟨n, hn, h⟩
        split at h
        · cases h
          exact ⟨by omega, by omega, n, .inl ⟨rfl, hn⟩⟩
        · simp at h
      · rintro ⟨h1, h2, n, ⟨rfl, h⟩ | ⟨rfl, d, h, hd⟩⟩
        · exact ⟨n, h, by rw [if_pos (by omega)]⟩
        · exact absurd h (hm d)

theorem castUInt64_iff {t : Bytes} {w : BitVec 64} : castUInt64 t = some w ↔ WritesWord t w := by
  have hneg : ∀ n : ℕ, n < 2 ^ 64 → ∀ w : BitVec 64, -(BitVec.ofNat 64 n) = w ↔ (w.toNat : ℤ) = (-(n : ℤ)) % 2 ^ 64 := by
    intro n hn w
    rw [← BitVec.toNat_inj, BitVec.toNat_neg, BitVec.toNat_ofNat, Nat.mod_eq_of_lt hn]
    have := w.isLt
    rcases Nat.eq_zero_or_pos n with rfl | hpos
    · simp; omega
    · have : (-(n : ℤ)) % 2 ^ 64 = 2 ^ 64 - n := by
        rw [← Int.add_emod_right, Int.emod_eq_of_lt] <;> omega
      rw [this, Nat.mod_eq_of_lt (by omega)]
      omega
  have hpos : ∀ n : ℕ, n < 2 ^ 64 → ∀ w : BitVec 64, BitVec.ofNat 64 n = w ↔ w.toNat = n := by
    intro n hn w
    rw [← BitVec.toNat_inj, BitVec.toNat_ofNat, Nat.mod_eq_of_lt hn, eq_comm]
  unfold castUInt64 WritesWord
  cases t with
  | nil => simp [not_digits_nil]
  | cons b rest =>
    by_cases hb : b = minusSign
    · subst hb
      have h43 : ∀ d, minusSign :: rest ≠ 43#8 :: d := by intro d; simp [minusSign]
      simp only [if_true, Option.bind_eq_some_iff, ← digits_iff]
      constructor
      · rintro ⟨n, hn, h⟩
        split at h
        · rename_i hlt
          exact ⟨n, hlt, .inr ⟨(hneg n hlt w).1 (Option.some.inj h), rest, rfl, hn⟩⟩
        · simp at h
      · rintro ⟨n, hlt, ⟨rfl, h | ⟨d, h, -⟩⟩ | ⟨hw, d, h, hd⟩⟩
        · exact absurd h not_digits_minus
        · exact absurd h (h43 d)
        · cases h
          exact ⟨n, hd, by rw [if_pos hlt, (hneg n hlt w).2 hw]⟩
    · have hm : ∀ d, b :: rest ≠ minusSign :: d := by intro d h; cases h; exact hb rfl
      simp only [if_neg hb, Option.bind_eq_some_iff, unsigned_iff hb]
      constructor
      · rintro ⟨n, hn, h⟩
        split at h
        · rename_i hlt
          exact ⟨n, hlt, .inl ⟨(hpos n hlt w).1 (Option.some.inj h), hn⟩⟩
        · simp at h
      · rintro ⟨n, hlt, ⟨hw, h⟩ | ⟨hw, d, h, hd⟩⟩
        · exact ⟨n, h, by rw [if_pos hlt, (hpos n hlt w).2 hw]⟩
        · exact absurd h (hm d)

/-! The options one after the other -/

section
variable {σ : Type} {store : σ → CliUse → Option σ}

theorem storeUses_once {uses : List CliUse} : ∀ {seen : List Bytes} {o o' : σ}, storeUses store seen o uses = some o' →
    (uses.map (·.name)).Nodup ∧ ∀ u ∈ uses, u.name ∉ seen := by
  induction uses with
  | nil => intros; simp
  | cons u us ih =>
    intro seen o o' h
    rw [storeUses] at h
    split at h
    · simp at h
    · rename_i hs
      split at h
      · simp at h
      · obtain ⟨h1, h2⟩ := ih h
        refine ⟨?_, ?_⟩
        · simp only [List.map_cons, List.nodup_cons]
          refine ⟨?_, h1⟩
          intro hm
          obtain ⟨x, hx, e⟩ := List.mem_map.1 hm
          exact h2 x hx (by rw [e]; simp)
        · intro x hx
          rcases List.mem_cons.1 hx with rfl | hx
          · exact hs
          · exact fun h => h2 x hx (List.mem_cons_of_mem _ h)

/-- All are stored if each can be, at any time. -/
theorem storeUses_total {uses : List CliUse} (hs : ∀ u ∈ uses, ∀ o, (store o u).isSome) :
    ∀ {seen : List Bytes} {o : σ}, (uses.map (·.name)).Nodup → (∀ u ∈ uses, u.name ∉ seen) →
    ∃ o', storeUses store seen o uses = some o' := by
  induction uses with
  | nil => intro seen o _ _; exact ⟨o, rfl⟩
  | cons u us ih =>
    intro seen o hn hd
    simp only [List.map_cons, List.nodup_cons] at hn
    obtain ⟨o1, h1⟩ := Option.isSome_iff_exists.1 (hs u (by simp) o)
    obtain ⟨o', h'⟩ := ih (fun x hx => hs x (List.mem_cons_of_mem _ hx)) (seen := u.name :: seen) (o := o1) hn.2 (by
      intro x hx h
      rcases List.mem_cons.1 h with h | h
      · exact hn.1 (h ▸ List.mem_map_of_mem hx)
      · exact hd x (List.mem_cons_of_mem _ hx) h)
    exact ⟨o', by rw [storeUses, if_neg (hd u (by simp)), h1]; exact h'⟩

/-- A field that only the option `name` sets. -/
theorem storeUses_field {β : Type} (π : σ → β) (name : Bytes) (P : CliUse → β → Prop)
    (step : ∀ o u o', store o u = some o' → (u.name = name → P u (π o')) ∧ (u.name ≠ name → π o' = π o))
    {uses : List CliUse} : ∀ {seen : List Bytes} {o o' : σ}, storeUses store seen o uses = some o' →
    (∃ u ∈ uses, u.name = name ∧ P u (π o')) ∨ (∀ u ∈ uses, u.name ≠ name) ∧ π o' = π o := by
  induction uses with
  | nil => intro seen o o' h; simp only [storeUses, Option.some.injEq] at h; subst h; simp
  | cons u us ih =>
    intro seen o o' h
    have h0 := (storeUses_once h).1
    rw [storeUses] at h
    split at h
    · simp at h
    · split at h
      · simp at h
      · rename_i o1 h1
        obtain ⟨s1, s2⟩ := step _ _ _ h1
        rcases ih h with ⟨x, hx, hn, hp⟩ | ⟨hn, e⟩
        · exact .inl ⟨x, List.mem_cons_of_mem _ hx, hn, hp⟩
        · by_cases hu : u.name = name
          · exact .inl ⟨u, by simp, hu, e ▸ s1 hu⟩
          · refine .inr ⟨?_, by rw [e, s2 hu]⟩
            intro x hx
            rcases List.mem_cons.1 hx with rfl | hx
            · exact hu
            · exact hn x hx

end
theorem storeUse_cases {F : CastFloats} {o o' : Options} {u : CliUse} (h : storeUse F o u = some o') :
    (u.name = ascii "help" ∧ o' = { o with help := true }) ∨
    (u.name = ascii "version" ∧ o' = { o with version := true }) ∨
    (u.name = ascii "spherical" ∧ o' = { o with spherical := true }) ∨
    (u.name = ascii "toroidal" ∧ o' = { o with toroidal := true }) ∨
    (u.name = ascii "simplices" ∧ ∃ x, castInt64 (u.value.getD []) = some x ∧ o' = { o with simplices := some x }) ∨
    (u.name = ascii "timeslices" ∧ ∃ x, castInt64 (u.value.getD []) = some x ∧ o' = { o with timeslices := some x }) ∨
    (u.name = ascii "dimensions" ∧ ∃ x, castInt64 (u.value.getD []) = some x ∧ o' = { o with dimensions := x }) ∨
    (u.name = ascii "init" ∧ ∃ x, F.double (u.value.getD []) = some x ∧ o' = { o with initialRadius := x }) ∨
    (u.name = ascii "foliate" ∧ ∃ x, F.double (u.value.getD []) = some x ∧ o' = { o with foliationSpacing := x }) ∨
    (u.name = ascii "no-output" ∧ o' = { o with noOutput := true }) ∨
    (u.name = ascii "output" ∧ o' = { o with output := true }) ∨
    (u.name = ascii "seed" ∧ ∃ x, castUInt64 (u.value.getD []) = some x ∧ o' = { o with seed := some x }) ∨
    (u.name = ascii "threads" ∧ ∃ x, castInt64 (u.value.getD []) = some x ∧ o' = { o with threads := x }) ∨
    (u.name = ascii "alpha" ∧ ∃ x, F.longDouble (u.value.getD []) = some x ∧ o' = { o with alpha := some x }) ∨
    (u.name = ascii "k" ∧ ∃ x, F.longDouble (u.value.getD []) = some x ∧ o' = { o with k := some x }) ∨
    (u.name = ascii "lambda" ∧ ∃ x, F.longDouble (u.value.getD []) = some x ∧ o' = { o with lambda := some x }) ∨
    (u.name = ascii "passes" ∧ ∃ x, castInt64 (u.value.getD []) = some x ∧ o' = { o with passes := x }) ∨
    (u.name = ascii "checkpoint" ∧ ∃ x, castInt64 (u.value.getD []) = some x ∧ o' = { o with checkpoint := x }) := by
  unfold storeUse at h
  simp only at h
  by_cases hn : u.name = ascii "help"
  · rw [if_pos hn] at h
    refine .inl ⟨hn, (Option.some.inj h).symm⟩
  rw [if_neg hn] at h
  clear hn
  by_cases hn : u.name = ascii "version"
  · rw [if_pos hn] at h
    refine .inr (.inl ⟨hn, (Option.some.inj h).symm⟩)
  rw [if_neg hn] at h
  clear hn
  by_cases hn : u.name = ascii "spherical"
  · rw [if_pos hn] at h
    refine .inr (.inr (.inl ⟨hn, (Option.some.inj h).symm⟩))
  rw [if_neg hn] at h
  clear hn
  by_cases hn : u.name = ascii "toroidal"
  · rw [if_pos hn] at h
    refine .inr (.inr (.inr (.inl ⟨hn, (Option.some.inj h).symm⟩)))
  rw [if_neg hn] at h
  clear hn
  by_cases hn : u.name = ascii "simplices"
  · rw [if_pos hn] at h
    refine .inr (.inr (.inr (.inr (.inl ⟨hn, ?_⟩))))
    obtain ⟨x, hx, e⟩ := Option.map_eq_some_iff.1 h
    exact ⟨x, hx, e.symm⟩
  rw [if_neg hn] at h
  clear hn
  by_cases hn : u.name = ascii "timeslices"
  · rw [if_pos hn] at h
    refine .inr (.inr (.inr (.inr (.inr (.inl ⟨hn, ?_⟩)))))
    obtain ⟨x, hx, e⟩ := Option.map_eq_some_iff.1 h
    exact ⟨x, hx, e.symm⟩
  rw [if_neg hn] at h
  clear hn
  by_cases hn : u.name = ascii "dimensions"
  · rw [if_pos hn] at h
    refine .inr (.inr (.inr (.inr (.inr (.inr (.inl ⟨hn, ?_⟩))))))
    obtain ⟨x, hx, e⟩ := Option.map_eq_some_iff.1 h
    exact ⟨x, hx, e.symm⟩
  rw [if_neg hn] at h
  clear hn
  by_cases hn : u.name = ascii "init"
  · rw [if_pos hn] at h
    refine .inr (.inr (.inr (.inr (.inr (.inr (.inr (.inl ⟨hn, ?_⟩)))))))
    obtain ⟨x, hx, e⟩ := Option.map_eq_some_iff.1 h
    exact ⟨x, hx, e.symm⟩
  rw [if_neg hn] at h
  clear hn
  by_cases hn : u.name = ascii "foliate"
  · rw [if_pos hn] at h
    refine .inr (.inr (.inr (.inr (.inr (.inr (.inr (.inr (.inl ⟨hn, ?_⟩))))))))
    obtain ⟨x, hx, e⟩ := Option.map_eq_some_iff.1 h
    exact ⟨x, hx, e.symm⟩
  rw [if_neg hn] at h
  clear hn
  by_cases hn : u.name = ascii "no-output"
  · rw [if_pos hn] at h
    refine .inr (.inr (.inr (.inr (.inr (.inr (.inr (.inr (.inr (.inl ⟨hn, (Option.some.inj h).symm⟩)))))))))
  rw [if_neg hn] at h
  clear hn
  by_cases hn : u.name = ascii "output"
  · rw [if_pos hn] at h
    refine .inr (.inr (.inr (.inr (.inr (.inr (.inr (.inr (.inr (.inr (.inl ⟨hn, (Option.some.inj h).symm⟩))))))))))
  rw [if_neg hn] at h
  clear hn
  by_cases hn : u.name = ascii "seed"
  · rw [if_pos hn] at h
    refine .inr (.inr (.inr (.inr (.inr (.inr (.inr (.inr (.inr (.inr (.inr (.inl ⟨hn, ?_⟩)))))))))))
    obtain ⟨x, hx, e⟩ := Option.map_eq_some_iff.1 h
    exact ⟨x, hx, e.symm⟩
  rw [if_neg hn] at h
  clear hn
  by_cases hn : u.name = ascii "threads"
  · rw [if_pos hn] at h
    refine .inr (.inr (.inr (.inr (.inr (.inr (.inr (.inr (.inr (.inr (.inr (.inr (.inl ⟨hn, ?_⟩))))))))))))
    obtain ⟨x, hx, e⟩ := Option.map_eq_some_iff.1 h
    exact ⟨x, hx, e.symm⟩
  rw [if_neg hn] at h
  clear hn
  by_cases hn : u.name = ascii "alpha"
  · rw [if_pos hn] at h
    refine .inr (.inr (.inr (.inr (.inr (.inr (.inr (.inr (.inr (.inr (.inr (.inr (.inr (.inl ⟨hn, ?_⟩)))))))))))))
    obtain ⟨x, hx, e⟩ := Option.map_eq_some_iff.1 h
    exact ⟨x, hx, e.symm⟩
  rw [if_neg hn] at h
  clear hn
  by_cases hn : u.name = ascii "k"
  · rw [if_pos hn] at h
    refine .inr (.inr (.inr (.inr (.inr (.inr (.inr (.inr (.inr (.inr (.inr (.inr (.inr (.inr (.inl ⟨hn, ?_⟩))))))))))))))
    obtain ⟨x, hx, e⟩ := Option.map_eq_some_iff.1 h
    exact ⟨x, hx, e.symm⟩
  rw [if_neg hn] at h
  clear hn
  by_cases hn : u.name = ascii "lambda"
  · rw [if_pos hn] at h
    refine .inr (.inr (.inr (.inr (.inr (.inr (.inr (.inr (.inr (.inr (.inr (.inr (.inr (.inr (.inr (.inl ⟨hn, ?_⟩)))))))))))))))
    obtain ⟨x, hx, e⟩ := Option.map_eq_some_iff.1 h
    exact ⟨x, hx, e.symm⟩
  rw [if_neg hn] at h
  clear hn
  by_cases hn : u.name = ascii "passes"
  · rw [if_pos hn] at h
    refine .inr (.inr (.inr (.inr (.inr (.inr (.inr (.inr (.inr (.inr (.inr (.inr (.inr (.inr (.inr (.inr (.inl ⟨hn, ?_⟩))))))))))))))))
    obtain ⟨x, hx, e⟩ := Option.map_eq_some_iff.1 h
    exact ⟨x, hx, e.symm⟩
  rw [if_neg hn] at h
  clear hn
  by_cases hn : u.name = ascii "checkpoint"
  · rw [if_pos hn] at h
    refine .inr (.inr (.inr (.inr (.inr (.inr (.inr (.inr (.inr (.inr (.inr (.inr (.inr (.inr (.inr (.inr (.inr (⟨hn, ?_⟩)))))))))))))))))
    obtain ⟨x, hx, e⟩ := Option.map_eq_some_iff.1 h
    exact ⟨x, hx, e.symm⟩
  rw [if_neg hn] at h
  clear hn
  simp at h

theorem step_help {F : CastFloats} (o : Options) (u : CliUse) (o' : Options) (h : storeUse F o u = some o') :
    (u.name = ascii "help" → (fun _ b => b = true : CliUse → _ → Prop) u o'.help) ∧ (u.name ≠ ascii "help" → o'.help = o.help) := by
  rcases storeUse_cases h with ⟨hn, rfl⟩ | ⟨hn, rfl⟩ | ⟨hn, rfl⟩ | ⟨hn, rfl⟩ | ⟨hn, x, hx, rfl⟩ | ⟨hn, x, hx, rfl⟩ | ⟨hn, x, hx, rfl⟩ | ⟨hn, x, hx, rfl⟩ | ⟨hn, x, hx, rfl⟩ | ⟨hn, rfl⟩ | ⟨hn, rfl⟩ | ⟨hn, x, hx, rfl⟩ | ⟨hn, x, hx, rfl⟩ | ⟨hn, x, hx, rfl⟩ | ⟨hn, x, hx, rfl⟩ | ⟨hn, x, hx, rfl⟩ | ⟨hn, x, hx, rfl⟩ | ⟨hn, x, hx, rfl⟩
  · exact ⟨fun _ => rfl, fun e => absurd hn e⟩
  · exact ⟨fun e => absurd (hn.symm.trans e) (by decide), fun _ => rfl⟩
  · exact ⟨fun e => absurd (hn.symm.trans e) (by decide), fun _ => rfl⟩
  · exact ⟨fun e => absurd (hn.symm.trans e) (by decide), fun _ => rfl⟩
  · exact ⟨fun e => absurd (hn.symm.trans e) (by decide), fun _ => rfl⟩
  · exact ⟨fun e => absurd (hn.symm.trans e) (by decide), fun _ => rfl⟩
  · exact ⟨fun e => absurd (hn.symm.trans e) (by decide), fun _ => rfl⟩
  · exact ⟨fun e => absurd (hn.symm.trans e) (by decide), fun _ => rfl⟩
  · exact ⟨fun e => absurd (hn.symm.trans e) (by decide), fun _ => rfl⟩
  · exact ⟨fun e => absurd (hn.symm.trans e) (by decide), fun _ => rfl⟩
  · exact ⟨fun e => absurd (hn.symm.trans e) (by decide), fun _ => rfl⟩
  · exact ⟨fun e => absurd (hn.symm.trans e) (by decide), fun _ => rfl⟩
  · exact ⟨fun e => absurd (hn.symm.trans e) (by decide), fun _ => rfl⟩
  · exact ⟨fun e => absurd (hn.symm.trans e) (by decide), fun _ => rfl⟩
  · exact ⟨fun e => absurd (hn.symm.trans e) (by decide), fun _ => rfl⟩
  · exact ⟨fun e => absurd (hn.symm.trans e) (by decide), fun _ => rfl⟩
  · exact ⟨fun e => absurd (hn.symm.trans e) (by decide), fun _ => rfl⟩
  · exact ⟨fun e => absurd (hn.symm.trans e) (by decide), fun _ => rfl⟩

theorem step_version {F : CastFloats} (o : Options) (u : CliUse) (o' : Options) (h : storeUse F o u = some o') :
    (u.name = ascii "version" → (fun _ b => b = true : CliUse → _ → Prop) u o'.version) ∧ (u.name ≠ ascii "version" → o'.version = o.version) := by
  rcases storeUse_cases h with ⟨hn, rfl⟩ | ⟨hn, rfl⟩ | ⟨hn, rfl⟩ | ⟨hn, rfl⟩ | ⟨hn, x, hx, rfl⟩ | ⟨hn, x, hx, rfl⟩ | ⟨hn, x, hx, rfl⟩ | ⟨hn, x, hx, rfl⟩ | ⟨hn, x, hx, rfl⟩ | ⟨hn, rfl⟩ | ⟨hn, rfl⟩ | ⟨hn, x, hx, rfl⟩ | ⟨hn, x, hx, rfl⟩ | ⟨hn, x, hx, rfl⟩ | ⟨hn, x, hx, rfl⟩ | ⟨hn, x, hx, rfl⟩ | ⟨hn, x, hx, rfl⟩ | ⟨hn, x, hx, rfl⟩
  · exact ⟨fun e => absurd (hn.symm.trans e) (by decide), fun _ => rfl⟩
  · exact ⟨fun _ => rfl, fun e => absurd hn e⟩
  · exact ⟨fun e => absurd (hn.symm.trans e) (by decide), fun _ => rfl⟩
  · exact ⟨fun e => absurd (hn.symm.trans e) (by decide), fun _ => rfl⟩
  · exact ⟨fun e => absurd (hn.symm.trans e) (by decide), fun _ => rfl⟩
  · exact ⟨fun e => absurd (hn.symm.trans e) (by decide), fun _ => rfl⟩
  · exact ⟨fun e => absurd (hn.symm.trans e) (by decide), fun _ => rfl⟩
  · exact ⟨fun e => absurd (hn.symm.trans e) (by decide), fun _ => rfl⟩
  · exact ⟨fun e => absurd (hn.symm.trans e) (by decide), fun _ => rfl⟩
  · exact ⟨fun e => absurd (hn.symm.trans e) (by decide), fun _ => rfl⟩
  · exact ⟨fun e => absurd (hn.symm.trans e) (by decide), fun _ => rfl⟩
  · exact ⟨fun e => absurd (hn.symm.trans e) (by decide), fun _ => rfl⟩
  · exact ⟨fun e => absurd (hn.symm.trans e) (by decide), fun _ => rfl⟩
  · exact ⟨fun e => absurd (hn.symm.trans e) (by decide), fun _ => rfl⟩
  · exact ⟨fun e => absurd (hn.symm.trans e) (by decide), fun _ => rfl⟩
  · exact ⟨fun e => absurd (hn.symm.trans e) (by decide), fun _ => rfl⟩
  · exact ⟨fun e => absurd (hn.symm.trans e) (by decide), fun _ => rfl⟩
  · exact ⟨fun e => absurd (hn.symm.trans e) (by decide), fun _ => rfl⟩

theorem step_spherical {F : CastFloats} (o : Options) (u : CliUse) (o' : Options) (h : storeUse F o u = some o') :
    (u.name = ascii "spherical" → (fun _ b => b = true : CliUse → _ → Prop) u o'.spherical) ∧ (u.name ≠ ascii "spherical" → o'.spherical = o.spherical) := by
  rcases storeUse_cases h with ⟨hn, rfl⟩ | ⟨hn, rfl⟩ | ⟨hn, rfl⟩ | ⟨hn, rfl⟩ | ⟨hn, x, hx, rfl⟩ | ⟨hn, x, hx, rfl⟩ | ⟨hn, x, hx, rfl⟩ | ⟨hn, x, hx, rfl⟩ | ⟨hn, x, hx, rfl⟩ | ⟨hn, rfl⟩ | ⟨hn, rfl⟩ | ⟨hn, x, hx, rfl⟩ | ⟨hn, x, hx, rfl⟩ | ⟨hn, x, hx, rfl⟩ | ⟨hn, x, hx, rfl⟩ | ⟨hn, x, hx, rfl⟩ | ⟨hn, x, hx, rfl⟩ | ⟨hn, x, hx, rfl⟩
  · exact ⟨fun e => absurd (hn.symm.trans e) (by decide), fun _ => rfl⟩
  · exact ⟨fun e => absurd (hn.symm.trans e) (by decide), fun _ => rfl⟩
  · exact ⟨fun _ => rfl, fun e => absurd hn e⟩
  · exact ⟨fun e => absurd (hn.symm.trans e) (by decide), fun _ => rfl⟩
  · exact ⟨fun e => absurd (hn.symm.trans e) (by decide), fun _ => rfl⟩
  · exact ⟨fun e => absurd (hn.symm.trans e) (by decide), fun _ => rfl⟩
  · exact ⟨fun e => absurd (hn.symm.trans e) (by decide), fun _ => rfl⟩
  · exact ⟨fun e => absurd (hn.symm.trans e) (by decide), fun _ => rfl⟩
  · exact ⟨fun e => absurd (hn.symm.trans e) (by decide), fun _ => rfl⟩
  · exact ⟨fun e => absurd (hn.symm.trans e) (by decide), fun _ => rfl⟩
  · exact ⟨fun e => absurd (hn.symm.trans e) (by decide), fun _ => rfl⟩
  · exact ⟨fun e => absurd (hn.symm.trans e) (by decide), fun _ => rfl⟩
  · exact ⟨fun e => absurd (hn.symm.trans e) (by decide), fun _ => rfl⟩
  · exact ⟨fun e => absurd (hn.symm.trans e) (by decide), fun _ => rfl⟩
  · exact ⟨fun e => absurd (hn.symm.trans e) (by decide), fun _ => rfl⟩
  · exact ⟨fun e => absurd (hn.symm.trans e) (by decide), fun _ => rfl⟩
  · exact ⟨fun e => absurd (hn.symm.trans e) (by decide), fun _ => rfl⟩
  · exact ⟨fun e => absurd (hn.symm.trans e) (by decide), fun _ => rfl⟩

theorem step_toroidal {F : CastFloats} (o : Options) (u : CliUse) (o' : Options) (h : storeUse F o u = some o') :
    (u.name = ascii "toroidal" → (fun _ b => b = true : CliUse → _ → Prop) u o'.toroidal) ∧ (u.name ≠ ascii "toroidal" → o'.toroidal = o.toroidal) := by
  rcases storeUse_cases h with ⟨hn, rfl⟩ | ⟨hn, rfl⟩ | ⟨hn, rfl⟩ | ⟨hn, rfl⟩ | ⟨hn, x, hx, rfl⟩ | ⟨hn, x, hx, rfl⟩ | ⟨hn, x, hx, rfl⟩ | ⟨hn, x, hx, rfl⟩ | ⟨hn, x, hx, rfl⟩ | ⟨hn, rfl⟩ | ⟨hn, rfl⟩ | ⟨hn, x, hx, rfl⟩ | ⟨hn, x, hx, rfl⟩ | ⟨hn, x, hx, rfl⟩ | ⟨hn, x, hx, rfl⟩ | ⟨hn, x, hx, rfl⟩ | ⟨hn, x, hx, rfl⟩ | ⟨hn, x, hx, rfl⟩
  · exact ⟨fun e => absurd (hn.symm.trans e) (by decide), fun _ => rfl⟩
  · exact ⟨fun e => absurd (hn.symm.trans e) (by decide), fun _ => rfl⟩
  · exact ⟨fun e => absurd (hn.symm.trans e) (by decide), fun _ => rfl⟩
  · exact ⟨fun _ => rfl, fun e => absurd hn e⟩
  · exact ⟨fun e => absurd (hn.symm.trans e) (by decide), fun _ => rfl⟩
  · exact ⟨fun e => absurd (hn.symm.trans e) (by decide), fun _ => rfl⟩
  · exact ⟨fun e => absurd (hn.symm.trans e) (by decide), fun _ => rfl⟩
  · exact ⟨fun e => absurd (hn.symm.trans e) (by decide), fun _ => rfl⟩
  · exact ⟨fun e => absurd (hn.symm.trans e) (by decide), fun _ => rfl⟩
  · exact ⟨fun e => absurd (hn.symm.trans e) (by decide), fun _ => rfl⟩
  · exact ⟨fun e => absurd (hn.symm.trans e) (by decide), fun _ => rfl⟩
  · exact ⟨fun e => absurd (hn.symm.trans e) (by decide), fun _ => rfl⟩
  · exact ⟨fun e => absurd (hn.symm.trans e) (by decide), fun _ => rfl⟩
  · exact ⟨fun e => absurd (hn.symm.trans e) (by decide), fun _ => rfl⟩
  · exact ⟨fun e => absurd (hn.symm.trans e) (by decide), fun _ => rfl⟩
  · exact ⟨fun e => absurd (hn.symm.trans e) (by decide), fun _ => rfl⟩
  · exact ⟨fun e => absurd (hn.symm.trans e) (by decide), fun _ => rfl⟩
  · exact ⟨fun e => absurd (hn.symm.trans e) (by decide), fun _ => rfl⟩

theorem step_simplices {F : CastFloats} (o : Options) (u : CliUse) (o' : Options) (h : storeUse F o u = some o') :
    (u.name = ascii "simplices" → (fun u b => ∃ a, WritesInteger (u.value.getD []) a ∧ b = some a : CliUse → _ → Prop) u o'.simplices) ∧ (u.name ≠ ascii "simplices" → o'.simplices = o.simplices) := by
  rcases storeUse_cases h with ⟨hn, rfl⟩ | ⟨hn, rfl⟩ | ⟨hn, rfl⟩ | ⟨hn, rfl⟩ | ⟨hn, x, hx, rfl⟩ | ⟨hn, x, hx, rfl⟩ | ⟨hn, x, hx, rfl⟩ | ⟨hn, x, hx, rfl⟩ | ⟨hn, x, hx, rfl⟩ | ⟨hn, rfl⟩ | ⟨hn, rfl⟩ | ⟨hn, x, hx, rfl⟩ | ⟨hn, x, hx, rfl⟩ | ⟨hn, x, hx, rfl⟩ | ⟨hn, x, hx, rfl⟩ | ⟨hn, x, hx, rfl⟩ | ⟨hn, x, hx, rfl⟩ | ⟨hn, x, hx, rfl⟩
  · exact ⟨fun e => absurd (hn.symm.trans e) (by decide), fun _ => rfl⟩
  · exact ⟨fun e => absurd (hn.symm.trans e) (by decide), fun _ => rfl⟩
  · exact ⟨fun e => absurd (hn.symm.trans e) (by decide), fun _ => rfl⟩
  · exact ⟨fun e => absurd (hn.symm.trans e) (by decide), fun _ => rfl⟩
  · exact ⟨fun _ => ⟨x, castInt64_iff.1 hx, rfl⟩, fun e => absurd hn e⟩
  · exact ⟨fun e => absurd (hn.symm.trans e) (by decide), fun _ => rfl⟩
  · exact ⟨fun e => absurd (hn.symm.trans e) (by decide), fun _ => rfl⟩
  · exact ⟨fun e => absurd (hn.symm.trans e) (by decide), fun _ => rfl⟩
  · exact ⟨fun e => absurd (hn.symm.trans e) (by decide), fun _ => rfl⟩
  · exact ⟨fun e => absurd (hn.symm.trans e) (by decide), fun _ => rfl⟩
  · exact ⟨fun e => absurd (hn.symm.trans e) (by decide), fun _ => rfl⟩
  · exact ⟨fun e => absurd (hn.symm.trans e) (by decide), fun _ => rfl⟩
  · exact ⟨fun e => absurd (hn.symm.trans e) (by decide), fun _ => rfl⟩
  · exact ⟨fun e => absurd (hn.symm.trans e) (by decide), fun _ => rfl⟩
  · exact ⟨fun e => absurd (hn.symm.trans e) (by decide), fun _ => rfl⟩
  · exact ⟨fun e => absurd (hn.symm.trans e) (by decide), fun _ => rfl⟩
  · exact ⟨fun e => absurd (hn.symm.trans e) (by decide), fun _ => rfl⟩
  · exact ⟨fun e => absurd (hn.symm.trans e) (by decide), fun _ => rfl⟩

theorem step_timeslices {F : CastFloats} (o : Options) (u : CliUse) (o' : Options) (h : storeUse F o u = some o') :
    (u.name = ascii "timeslices" → (fun u b => ∃ a, WritesInteger (u.value.getD []) a ∧ b = some a : CliUse → _ → Prop) u o'.timeslices) ∧ (u.name ≠ ascii "timeslices" → o'.timeslices = o.timeslices) := by
  rcases storeUse_cases h with ⟨hn, rfl⟩ | ⟨hn, rfl⟩ | ⟨hn, rfl⟩ | ⟨hn, rfl⟩ | ⟨hn, x, hx, rfl⟩ | ⟨hn, x, hx, rfl⟩ | ⟨hn, x, hx, rfl⟩ | ⟨hn, x, hx, rfl⟩ | ⟨hn, x, hx, rfl⟩ | ⟨hn, rfl⟩ | ⟨hn, rfl⟩ | ⟨hn, x, hx, rfl⟩ | ⟨hn, x, hx, rfl⟩ | ⟨hn, x, hx, rfl⟩ | ⟨hn, x, hx, rfl⟩ | ⟨hn, x, hx, rfl⟩ | ⟨hn, x, hx, rfl⟩ | ⟨hn, x, hx, rfl⟩
  · exact ⟨fun e => absurd (hn.symm.trans e) (by decide), fun _ => rfl⟩
  · exact ⟨fun e => absurd (hn.symm.trans e) (by decide), fun _ => rfl⟩
  · exact ⟨fun e => absurd (hn.symm.trans e) (by decide), fun _ => rfl⟩
  · exact ⟨fun e => absurd (hn.symm.trans e) (by decide), fun _ => rfl⟩
  · exact ⟨fun e => absurd (hn.symm.trans e) (by decide), fun _ => rfl⟩
  · exact ⟨fun _ => ⟨x, castInt64_iff.1 hx, rfl⟩, fun e => absurd hn e⟩
  · exact ⟨fun e => absurd (hn.symm.trans e) (by decide), fun _ => rfl⟩
  · exact ⟨fun e => absurd (hn.symm.trans e) (by decide), fun _ => rfl⟩
  · exact ⟨fun e => absurd (hn.symm.trans e) (by decide), fun _ => rfl⟩
  · exact ⟨fun e => absurd (hn.symm.trans e) (by decide), fun _ => rfl⟩
  · exact ⟨fun e => absurd (hn.symm.trans e) (by decide), fun _ => rfl⟩
  · exact ⟨fun e => absurd (hn.symm.trans e) (by decide), fun _ => rfl⟩
  · exact ⟨fun e => absurd (hn.symm.trans e) (by decide), fun _ => rfl⟩
  · exact ⟨fun e => absurd (hn.symm.trans e) (by decide), fun _ => rfl⟩
  · exact ⟨fun e => absurd (hn.symm.trans e) (by decide), fun _ => rfl⟩
  · exact ⟨fun e => absurd (hn.symm.trans e) (by decide), fun _ => rfl⟩
  · exact ⟨fun e => absurd (hn.symm.trans e) (by decide), fun _ => rfl⟩
  · exact ⟨fun e => absurd (hn.symm.trans e) (by decide), fun _ => rfl⟩

theorem step_dimensions {F : CastFloats} (o : Options) (u : CliUse) (o' : Options) (h : storeUse F o u = some o') :
    (u.name = ascii "dimensions" → (fun u b => ∃ a, WritesInteger (u.value.getD []) a ∧ b = id a : CliUse → _ → Prop) u o'.dimensions) ∧ (u.name ≠ ascii "dimensions" → o'.dimensions = o.dimensions) := by
  rcases storeUse_cases h with ⟨hn, rfl⟩ | ⟨hn, rfl⟩ | ⟨hn, rfl⟩ | ⟨hn, rfl⟩ | ⟨hn, x, hx, rfl⟩ | ⟨hn, x, hx, rfl⟩ | ⟨hn, x, hx, rfl⟩ | ⟨hn, x, hx, rfl⟩ | ⟨hn, x, hx, rfl⟩ | ⟨hn, rfl⟩ | ⟨hn, rfl⟩ | ⟨hn, x, hx, rfl⟩ | ⟨hn, x, hx, rfl⟩ | ⟨hn, x, hx, rfl⟩ | ⟨hn, x, hx, rfl⟩ | ⟨hn, x, hx, rfl⟩ | ⟨hn, x, hx, rfl⟩ | ⟨hn, x, hx, rfl⟩
  · exact ⟨fun e => absurd (hn.symm.trans e) (by decide), fun _ => rfl⟩
  · exact ⟨fun e => absurd (hn.symm.trans e) (by decide), fun _ => rfl⟩
  · exact ⟨fun e => absurd (hn.symm.trans e) (by decide), fun _ => rfl⟩
  · exact ⟨fun e => absurd (hn.symm.trans e) (by decide), fun _ => rfl⟩
  · exact ⟨fun e => absurd (hn.symm.trans e) (by decide), fun _ => rfl⟩
  · exact ⟨fun e => absurd (hn.symm.trans e) (by decide), fun _ => rfl⟩
  · exact ⟨fun _ => ⟨x, castInt64_iff.1 hx, rfl⟩, fun e => absurd hn e⟩
  · exact ⟨fun e => absurd (hn.symm.trans e) (by decide), fun _ => rfl⟩
  · exact ⟨fun e => absurd (hn.symm.trans e) (by decide), fun _ => rfl⟩
  · exact ⟨fun e => absurd (hn.symm.trans e) (by decide), fun _ => rfl⟩
  · exact ⟨fun e => absurd (hn.symm.trans e) (by decide), fun _ => rfl⟩
  · exact ⟨fun e => absurd (hn.symm.trans e) (by decide), fun _ => rfl⟩
  · exact ⟨fun e => absurd (hn.symm.trans e) (by decide), fun _ => rfl⟩
  · exact ⟨fun e => absurd (hn.symm.trans e) (by decide), fun _ => rfl⟩
  · exact ⟨fun e => absurd (hn.symm.trans e) (by decide), fun _ => rfl⟩
  · exact ⟨fun e => absurd (hn.symm.trans e) (by decide), fun _ => rfl⟩
  · exact ⟨fun e => absurd (hn.symm.trans e) (by decide), fun _ => rfl⟩
  · exact ⟨fun e => absurd (hn.symm.trans e) (by decide), fun _ => rfl⟩

theorem step_initialRadius {F : CastFloats} (o : Options) (u : CliUse) (o' : Options) (h : storeUse F o u = some o') :
    (u.name = ascii "init" → (fun u b => ∃ a, (fun v x => F.double v = some x) (u.value.getD []) a ∧ b = id a : CliUse → _ → Prop) u o'.initialRadius) ∧ (u.name ≠ ascii "init" → o'.initialRadius = o.initialRadius) := by
  rcases storeUse_cases h with ⟨hn, rfl⟩ | ⟨hn, rfl⟩ | ⟨hn, rfl⟩ | ⟨hn, rfl⟩ | ⟨hn, x, hx, rfl⟩ | ⟨hn, x, hx, rfl⟩ | ⟨hn, x, hx, rfl⟩ | ⟨hn, x, hx, rfl⟩ | ⟨hn, x, hx, rfl⟩ | ⟨hn, rfl⟩ | ⟨hn, rfl⟩ | ⟨hn, x, hx, rfl⟩ | ⟨hn, x, hx, rfl⟩ | ⟨hn, x, hx, rfl⟩ | ⟨hn, x, hx, rfl⟩ | ⟨hn, x, hx, rfl⟩ | ⟨hn, x, hx, rfl⟩ | ⟨hn, x, hx, rfl⟩
  · exact ⟨fun e => absurd (hn.symm.trans e) (by decide), fun _ => rfl⟩
  · exact ⟨fun e => absurd (hn.symm.trans e) (by decide), fun _ => rfl⟩
  · exact ⟨fun e => absurd (hn.symm.trans e) (by decide), fun _ => rfl⟩
  · exact ⟨fun e => absurd (hn.symm.trans e) (by decide), fun _ => rfl⟩
  · exact ⟨fun e => absurd (hn.symm.trans e) (by decide), fun _ => rfl⟩
  · exact ⟨fun e => absurd (hn.symm.trans e) (by decide), fun _ => rfl⟩
  · exact ⟨fun e => absurd (hn.symm.trans e) (by decide), fun _ => rfl⟩
  · exact ⟨fun _ => ⟨x, hx, rfl⟩, fun e => absurd hn e⟩
  · exact ⟨fun e => absurd (hn.symm.trans e) (by decide), fun _ => rfl⟩
  · exact ⟨fun e => absurd (hn.symm.trans e) (by decide), fun _ => rfl⟩
  · exact ⟨fun e => absurd (hn.symm.trans e) (by decide), fun _ => rfl⟩
  · exact ⟨fun e => absurd (hn.symm.trans e) (by decide), fun _ => rfl⟩
  · exact ⟨fun e => absurd (hn.symm.trans e) (by decide), fun _ => rfl⟩
  · exact ⟨fun e => absurd (hn.symm.trans e) (by decide), fun _ => rfl⟩
  · exact ⟨fun e => absurd (hn.symm.trans e) (by decide), fun _ => rfl⟩
  · exact ⟨fun e => absurd (hn.symm.trans e) (by decide), fun _ => rfl⟩
  · exact ⟨fun e => absurd (hn.symm.trans e) (by decide), fun _ => rfl⟩
  · exact ⟨fun e => absurd (hn.symm.trans e) (by decide), fun _ => rfl⟩

theorem step_foliationSpacing {F : CastFloats} (o : Options) (u : CliUse) (o' : Options) (h : storeUse F o u = some o') :
    (u.name = ascii "foliate" → (fun u b => ∃ a, (fun v x => F.double v = some x) (u.value.getD []) a ∧ b = id a : CliUse → _ → Prop) u o'.foliationSpacing) ∧ (u.name ≠ ascii "foliate" → o'.foliationSpacing = o.foliationSpacing) := by
  rcases storeUse_cases h with ⟨hn, rfl⟩ | ⟨hn, rfl⟩ | ⟨hn, rfl⟩ | ⟨hn, rfl⟩ | ⟨hn, x, hx, rfl⟩ | ⟨hn, x, hx, rfl⟩ | ⟨hn, x, hx, rfl⟩ | ⟨hn, x, hx, rfl⟩ | ⟨hn, x, hx, rfl⟩ | ⟨hn, rfl⟩ | ⟨hn, rfl⟩ | ⟨hn, x, hx, rfl⟩ | ⟨hn, x, hx, rfl⟩ | ⟨hn, x, hx, rfl⟩ | ⟨hn, x, hx, rfl⟩ | ⟨hn, x, hx, rfl⟩ | ⟨hn, x, hx, rfl⟩ | ⟨hn, x, hx, rfl⟩
  · exact ⟨fun e => absurd (hn.symm.trans e) (by decide), fun _ => rfl⟩
  · exact ⟨fun e => absurd (hn.symm.trans e) (by decide), fun _ => rfl⟩
  · exact ⟨fun e => absurd (hn.symm.trans e) (by decide), fun _ => rfl⟩
  · exact ⟨fun e => absurd (hn.symm.trans e) (by decide), fun _ => rfl⟩
  · exact ⟨fun e => absurd (hn.symm.trans e) (by decide), fun _ => rfl⟩
  · exact ⟨fun e => absurd (hn.symm.trans e) (by decide), fun _ => rfl⟩
  · exact ⟨fun e => absurd (hn.symm.trans e) (by decide), fun _ => rfl⟩
  · exact ⟨fun e => absurd (hn.symm.trans e) (by decide), fun _ => rfl⟩
  · exact ⟨fun _ => ⟨x, hx, rfl⟩, fun e => absurd hn e⟩
  · exact ⟨fun e => absurd (hn.symm.trans e) (by decide), fun _ => rfl⟩
  · exact ⟨fun e => absurd (hn.symm.trans e) (by decide), fun _ => rfl⟩
  · exact ⟨fun e => absurd (hn.symm.trans e) (by decide), fun _ => rfl⟩
  · exact ⟨fun e => absurd (hn.symm.trans e) (by decide), fun _ => rfl⟩
  · exact ⟨fun e => absurd (hn.symm.trans e) (by decide), fun _ => rfl⟩
  · exact ⟨fun e => absurd (hn.symm.trans e) (by decide), fun _ => rfl⟩
  · exact ⟨fun e => absurd (hn.symm.trans e) (by decide), fun _ => rfl⟩
  · exact ⟨fun e => absurd (hn.symm.trans e) (by decide), fun _ => rfl⟩
  · exact ⟨fun e => absurd (hn.symm.trans e) (by decide), fun _ => rfl⟩

theorem step_noOutput {F : CastFloats} (o : Options) (u : CliUse) (o' : Options) (h : storeUse F o u = some o') :
    (u.name = ascii "no-output" → (fun _ b => b = true : CliUse → _ → Prop) u o'.noOutput) ∧ (u.name ≠ ascii "no-output" → o'.noOutput = o.noOutput) := by
  rcases storeUse_cases h with ⟨hn, rfl⟩ | ⟨hn, rfl⟩ | ⟨hn, rfl⟩ | ⟨hn, rfl⟩ | ⟨hn, x, hx, rfl⟩ | ⟨hn, x, hx, rfl⟩ | ⟨hn, x, hx, rfl⟩ | ⟨hn, x, hx, rfl⟩ | ⟨hn, x, hx, rfl⟩ | ⟨hn, rfl⟩ | ⟨hn, rfl⟩ | ⟨hn, x, hx, rfl⟩ | ⟨hn, x, hx, rfl⟩ | ⟨hn, x, hx, rfl⟩ | ⟨hn, x, hx, rfl⟩ | ⟨hn, x, hx, rfl⟩ | ⟨hn, x, hx, rfl⟩ | ⟨hn, x, hx, rfl⟩
  · exact ⟨fun e => absurd (hn.symm.trans e) (by decide), fun _ => rfl⟩
  · exact ⟨fun e => absurd (hn.symm.trans e) (by decide), fun _ => rfl⟩
  · exact ⟨fun e => absurd (hn.symm.trans e) (by decide), fun _ => rfl⟩
  · exact ⟨fun e => absurd (hn.symm.trans e) (by decide), fun _ => rfl⟩
  · exact ⟨fun e => absurd (hn.symm.trans e) (by decide), fun _ => rfl⟩
  · exact ⟨fun e => absurd (hn.symm.trans e) (by decide), fun _ => rfl⟩
  · exact ⟨fun e => absurd (hn.symm.trans e) (by decide), fun _ => rfl⟩
  · exact ⟨fun e => absurd (hn.symm.trans e) (by decide), fun _ => rfl⟩
  · exact ⟨fun e => absurd (hn.symm.trans e) (by decide), fun _ => rfl⟩
  · exact ⟨fun _ => rfl, fun e => absurd hn e⟩
  · exact ⟨fun e => absurd (hn.symm.trans e) (by decide), fun _ => rfl⟩
  · exact ⟨fun e => absurd (hn.symm.trans e) (by decide), fun _ => rfl⟩
  · exact ⟨fun e => absurd (hn.symm.trans e) (by decide), fun _ => rfl⟩
  · exact ⟨fun e => absurd (hn.symm.trans e) (by decide), fun _ => rfl⟩
  · exact ⟨fun e => absurd (hn.symm.trans e) (by decide), fun _ => rfl⟩
  · exact ⟨fun e => absurd (hn.symm.trans e) (by decide), fun _ => rfl⟩
  · exact ⟨fun e => absurd (hn.symm.trans e) (by decide), fun _ => rfl⟩
  · exact ⟨fun e => absurd (hn.symm.trans e) (by decide), fun _ => rfl⟩

theorem step_output {F : CastFloats} (o : Options) (u : CliUse) (o' : Options) (h : storeUse F o u = some o') :
    (u.name = ascii "output" → (fun _ b => b = true : CliUse → _ → Prop) u o'.output) ∧ (u.name ≠ ascii "output" → o'.output = o.output) := by
  rcases storeUse_cases h with ⟨hn, rfl⟩ | ⟨hn, rfl⟩ | ⟨hn, rfl⟩ | ⟨hn, rfl⟩ | ⟨hn, x, hx, rfl⟩ | ⟨hn, x, hx, rfl⟩ | ⟨hn, x, hx, rfl⟩ | ⟨hn, x, hx, rfl⟩ | ⟨hn, x, hx, rfl⟩ | ⟨hn, rfl⟩ | ⟨hn, rfl⟩ | ⟨hn, x, hx, rfl⟩ | ⟨hn, x, hx, rfl⟩ | ⟨hn, x, hx, rfl⟩ | ⟨hn, x, hx, rfl⟩ | ⟨hn, x, hx, rfl⟩ | ⟨hn, x, hx, rfl⟩ | ⟨hn, x, hx, rfl⟩
  · exact ⟨fun e => absurd (hn.symm.trans e) (by decide), fun _ => rfl⟩
  · exact ⟨fun e => absurd (hn.symm.trans e) (by decide), fun _ => rfl⟩
  · exact ⟨fun e => absurd (hn.symm.trans e) (by decide), fun _ => rfl⟩
  · exact ⟨fun e => absurd (hn.symm.trans e) (by decide), fun _ => rfl⟩
  · exact ⟨fun e => absurd (hn.symm.trans e) (by decide), fun _ => rfl⟩
  · exact ⟨fun e => absurd (hn.symm.trans e) (by decide), fun _ => rfl⟩
  · exact ⟨fun e => absurd (hn.symm.trans e) (by decide), fun _ => rfl⟩
  · exact ⟨fun e => absurd (hn.symm.trans e) (by decide), fun _ => rfl⟩
  · exact ⟨fun e => absurd (hn.symm.trans e) (by decide), fun _ => rfl⟩
  · exact ⟨fun e => absurd (hn.symm.trans e) (by decide), fun _ => rfl⟩
  · exact ⟨fun _ => rfl, fun e => absurd hn e⟩
  · exact ⟨fun e => absurd (hn.symm.trans e) (by decide), fun _ => rfl⟩
  · exact ⟨fun e => absurd (hn.symm.trans e) (by decide), fun _ => rfl⟩
  · exact ⟨fun e => absurd (hn.symm.trans e) (by decide), fun _ => rfl⟩
  · exact ⟨fun e => absurd (hn.symm.trans e) (by decide), fun _ => rfl⟩
  · exact ⟨fun e => absurd (hn.symm.trans e) (by decide), fun _ => rfl⟩
  · exact ⟨fun e => absurd (hn.symm.trans e) (by decide), fun _ => rfl⟩
  · exact ⟨fun e => absurd (hn.symm.trans e) (by decide), fun _ => rfl⟩

theorem step_seed {F : CastFloats} (o : Options) (u : CliUse) (o' : Options) (h : storeUse F o u = some o') :
    (u.name = ascii "seed" → (fun u b => ∃ a, WritesWord (u.value.getD []) a ∧ b = some a : CliUse → _ → Prop) u o'.seed) ∧ (u.name ≠ ascii "seed" → o'.seed = o.seed) := by
  rcases storeUse_cases h with ⟨hn, rfl⟩ | ⟨hn, rfl⟩ | ⟨hn, rfl⟩ | ⟨hn, rfl⟩ | ⟨hn, x, hx, rfl⟩ | ⟨hn, x, hx, rfl⟩ | ⟨hn, x, hx, rfl⟩ | ⟨hn, x, hx, rfl⟩ | ⟨hn, x, hx, rfl⟩ | ⟨hn, rfl⟩ | ⟨hn, rfl⟩ | ⟨hn, x, hx, rfl⟩ | ⟨hn, x, hx, rfl⟩ | ⟨hn, x, hx, rfl⟩ | ⟨hn, x, hx, rfl⟩ | ⟨hn, x, hx, rfl⟩ | ⟨hn, x, hx, rfl⟩ | ⟨hn, x, hx, rfl⟩
  · exact ⟨fun e => absurd (hn.symm.trans e) (by decide), fun _ => rfl⟩
  · exact ⟨fun e => absurd (hn.symm.trans e) (by decide), fun _ => rfl⟩
  · exact ⟨fun e => absurd (hn.symm.trans e) (by decide), fun _ => rfl⟩
  · exact ⟨fun e => absurd (hn.symm.trans e) (by decide), fun _ => rfl⟩
  · exact ⟨fun e => absurd (hn.symm.trans e) (by decide), fun _ => rfl⟩
  · exact ⟨fun e => absurd (hn.symm.trans e) (by decide), fun _ => rfl⟩
  · exact ⟨fun e => absurd (hn.symm.trans e) (by decide), fun _ => rfl⟩
  · exact ⟨fun e => absurd (hn.symm.trans e) (by decide), fun _ => rfl⟩
  · exact ⟨fun e => absurd (hn.symm.trans e) (by decide), fun _ => rfl⟩
  · exact ⟨fun e => absurd (hn.symm.trans e) (by decide), fun _ => rfl⟩
  · exact ⟨fun e => absurd (hn.symm.trans e) (by decide), fun _ => rfl⟩
  · exact ⟨fun _ => ⟨x, castUInt64_iff.1 hx, rfl⟩, fun e => absurd hn e⟩
  · exact ⟨fun e => absurd (hn.symm.trans e) (by decide), fun _ => rfl⟩
  · exact ⟨fun e => absurd (hn.symm.trans e) (by decide), fun _ => rfl⟩
  · exact ⟨fun e => absurd (hn.symm.trans e) (by decide), fun _ => rfl⟩
  · exact ⟨fun e => absurd (hn.symm.trans e) (by decide), fun _ => rfl⟩
  · exact ⟨fun e => absurd (hn.symm.trans e) (by decide), fun _ => rfl⟩
  · exact ⟨fun e => absurd (hn.symm.trans e) (by decide), fun _ => rfl⟩

theorem step_threads {F : CastFloats} (o : Options) (u : CliUse) (o' : Options) (h : storeUse F o u = some o') :
    (u.name = ascii "threads" → (fun u b => ∃ a, WritesInteger (u.value.getD []) a ∧ b = id a : CliUse → _ → Prop) u o'.threads) ∧ (u.name ≠ ascii "threads" → o'.threads = o.threads) := by
  rcases storeUse_cases h with ⟨hn, rfl⟩ | ⟨hn, rfl⟩ | ⟨hn, rfl⟩ | ⟨hn, rfl⟩ | ⟨hn, x, hx, rfl⟩ | ⟨hn, x, hx, rfl⟩ | ⟨hn, x, hx, rfl⟩ | ⟨hn, x, hx, rfl⟩ | ⟨hn, x, hx, rfl⟩ | ⟨hn, rfl⟩ | ⟨hn, rfl⟩ | ⟨hn, x, hx, rfl⟩ | ⟨hn, x, hx, rfl⟩ | ⟨hn, x, hx, rfl⟩ | ⟨hn, x, hx, rfl⟩ | ⟨hn, x, hx, rfl⟩ | ⟨hn, x, hx, rfl⟩ | ⟨hn, x, hx, rfl⟩
  · exact ⟨fun e => absurd (hn.symm.trans e) (by decide), fun _ => rfl⟩
  · exact ⟨fun e => absurd (hn.symm.trans e) (by decide), fun _ => rfl⟩
  · exact ⟨fun e => absurd (hn.symm.trans e) (by decide), fun _ => rfl⟩
  · exact ⟨fun e => absurd (hn.symm.trans e) (by decide), fun _ => rfl⟩
  · exact ⟨fun e => absurd (hn.symm.trans e) (by decide), fun _ => rfl⟩
  · exact ⟨fun e => absurd (hn.symm.trans e) (by decide), fun _ => rfl⟩
  · exact ⟨fun e => absurd (hn.symm.trans e) (by decide), fun _ => rfl⟩
  · exact ⟨fun e => absurd (hn.symm.trans e) (by decide), fun _ => rfl⟩
  · exact ⟨fun e => absurd (hn.symm.trans e) (by decide), fun _ => rfl⟩
  · exact ⟨fun e => absurd (hn.symm.trans e) (by decide), fun _ => rfl⟩
  · exact ⟨fun e => absurd (hn.symm.trans e) (by decide), fun _ => rfl⟩
  · exact ⟨fun e => absurd (hn.symm.trans e) (by decide), fun _ => rfl⟩
  · exact ⟨fun _ => ⟨x, castInt64_iff.1 hx, rfl⟩, fun e => absurd hn e⟩
  · exact ⟨fun e => absurd (hn.symm.trans e) (by decide), fun _ => rfl⟩
  · exact ⟨fun e => absurd (hn.symm.trans e) (by decide), fun _ => rfl⟩
  · exact ⟨fun e => absurd (hn.symm.trans e) (by decide), fun _ => rfl⟩
  · exact ⟨fun e => absurd (hn.symm.trans e) (by decide), fun _ => rfl⟩
  · exact ⟨fun e => absurd (hn.symm.trans e) (by decide), fun _ => rfl⟩

theorem step_alpha {F : CastFloats} (o : Options) (u : CliUse) (o' : Options) (h : storeUse F o u = some o') :
    (u.name = ascii "alpha" → (fun u b => ∃ a, (fun v x => F.longDouble v = some x) (u.value.getD []) a ∧ b = some a : CliUse → _ → Prop) u o'.alpha) ∧ (u.name ≠ ascii "alpha" → o'.alpha = o.alpha) := by
  rcases storeUse_cases h with ⟨hn, rfl⟩ | ⟨hn, rfl⟩ | ⟨hn, rfl⟩ | ⟨hn, rfl⟩ | ⟨hn, x, hx, rfl⟩ | ⟨hn, x, hx, rfl⟩ | ⟨hn, x, hx, rfl⟩ | ⟨hn, x, hx, rfl⟩ | ⟨hn, x, hx, rfl⟩ | ⟨hn, rfl⟩ | ⟨hn, rfl⟩ | ⟨hn, x, hx, rfl⟩ | ⟨hn, x, hx, rfl⟩ | ⟨hn, x, hx, rfl⟩ | ⟨hn, x, hx, rfl⟩ | ⟨hn, x, hx, rfl⟩ | ⟨hn, x, hx, rfl⟩ | ⟨hn, x, hx, rfl⟩
  · exact ⟨fun e => absurd (hn.symm.trans e) (by decide), fun _ => rfl⟩
  · exact ⟨fun e => absurd (hn.symm.trans e) (by decide), fun _ => rfl⟩
  · exact ⟨fun e => absurd (hn.symm.trans e) (by decide), fun _ => rfl⟩
  · exact ⟨fun e => absurd (hn.symm.trans e) (by decide), fun _ => rfl⟩
  · exact ⟨fun e => absurd (hn.symm.trans e) (by decide), fun _ => rfl⟩
  · exact ⟨fun e => absurd (hn.symm.trans e) (by decide), fun _ => rfl⟩
  · exact ⟨fun e => absurd (hn.symm.trans e) (by decide), fun _ => rfl⟩
  · exact ⟨fun e => absurd (hn.symm.trans e) (by decide), fun _ => rfl⟩
  · exact ⟨fun e => absurd (hn.symm.trans e) (by decide), fun _ => rfl⟩
  · exact ⟨fun e => absurd (hn.symm.trans e) (by decide), fun _ => rfl⟩
  · exact ⟨fun e => absurd (hn.symm.trans e) (by decide), fun _ => rfl⟩
  · exact ⟨fun e => absurd (hn.symm.trans e) (by decide), fun _ => rfl⟩
  · exact ⟨fun e => absurd (hn.symm.trans e) (by decide), fun _ => rfl⟩
  · exact ⟨fun _ => ⟨x, hx, rfl⟩, fun e => absurd hn e⟩
  · exact ⟨fun e => absurd (hn.symm.trans e) (by decide), fun _ => rfl⟩
  · exact ⟨fun e => absurd (hn.symm.trans e) (by decide), fun _ => rfl⟩
  · exact ⟨fun e => absurd (hn.symm.trans e) (by decide), fun _ => rfl⟩
  · exact ⟨fun e => absurd (hn.symm.trans e) (by decide), fun _ => rfl⟩

theorem step_k {F : CastFloats} (o : Options) (u : CliUse) (o' : Options) (h : storeUse F o u = some o') :
    (u.name = ascii "k" → (fun u b => ∃ a, (fun v x => F.longDouble v = some x) (u.value.getD []) a ∧ b = some a : CliUse → _ → Prop) u o'.k) ∧ (u.name ≠ ascii "k" → o'.k = o.k) := by
  rcases storeUse_cases h with ⟨hn, rfl⟩ | ⟨hn, rfl⟩ | ⟨hn, rfl⟩ | ⟨hn, rfl⟩ | ⟨hn, x, hx, rfl⟩ | ⟨hn, x, hx, rfl⟩ | ⟨hn, x, hx, rfl⟩ | ⟨hn, x, hx, rfl⟩ | ⟨hn, x, hx, rfl⟩ | ⟨hn, rfl⟩ | ⟨hn, rfl⟩ | ⟨hn, x, hx, rfl⟩ | ⟨hn, x, hx, rfl⟩ | ⟨hn, x, hx, rfl⟩ | ⟨hn, x, hx, rfl⟩ | ⟨hn, x, hx, rfl⟩ | ⟨hn, x, hx, rfl⟩ | ⟨hn, x, hx, rfl⟩
  · exact ⟨fun e => absurd (hn.symm.trans e) (by decide), fun _ => rfl⟩
  · exact ⟨fun e => absurd (hn.symm.trans e) (by decide), fun _ => rfl⟩
  · exact ⟨fun e => absurd (hn.symm.trans e) (by decide), fun _ => rfl⟩
  · exact ⟨fun e => absurd (hn.symm.trans e) (by decide), fun _ => rfl⟩
  · exact ⟨fun e => absurd (hn.symm.trans e) (by decide), fun _ => rfl⟩
  · exact ⟨fun e => absurd (hn.symm.trans e) (by decide), fun _ => rfl⟩
  · exact ⟨fun e => absurd (hn.symm.trans e) (by decide), fun _ => rfl⟩
  · exact ⟨fun e => absurd (hn.symm.trans e) (by decide), fun _ => rfl⟩
  · exact ⟨fun e => absurd (hn.symm.trans e) (by decide), fun _ => rfl⟩
  · exact ⟨fun e => absurd (hn.symm.trans e) (by decide), fun _ => rfl⟩
  · exact ⟨fun e => absurd (hn.symm.trans e) (by decide), fun _ => rfl⟩
  · exact ⟨fun e => absurd (hn.symm.trans e) (by decide), fun _ => rfl⟩
  · exact ⟨fun e => absurd (hn.symm.trans e) (by decide), fun _ => rfl⟩
  · exact ⟨fun e => absurd (hn.symm.trans e) (by decide), fun _ => rfl⟩
  · exact ⟨fun _ => ⟨x, hx, rfl⟩, fun e => absurd hn e⟩
  · exact ⟨fun e => absurd (hn.symm.trans e) (by decide), fun _ => rfl⟩
  · exact ⟨fun e => absurd (hn.symm.trans e) (by decide), fun _ => rfl⟩
  · exact ⟨fun e => absurd (hn.symm.trans e) (by decide), fun _ => rfl⟩

theorem step_lambda {F : CastFloats} (o : Options) (u : CliUse) (o' : Options) (h : storeUse F o u = some o') :
    (u.name = ascii "lambda" → (fun u b => ∃ a, (fun v x => F.longDouble v = some x) (u.value.getD []) a ∧ b = some a : CliUse → _ → Prop) u o'.lambda) ∧ (u.name ≠ ascii "lambda" → o'.lambda = o.lambda) := by
  rcases storeUse_cases h with ⟨hn, rfl⟩ | ⟨hn, rfl⟩ | ⟨hn, rfl⟩ | ⟨hn, rfl⟩ | ⟨hn, x, hx, rfl⟩ | ⟨hn, x, hx, rfl⟩ | ⟨hn, x, hx, rfl⟩ | ⟨hn, x, hx, rfl⟩ | ⟨hn, x, hx, rfl⟩ | ⟨hn, rfl⟩ | ⟨hn, rfl⟩ | ⟨hn, x, hx, rfl⟩ | ⟨hn, x, hx, rfl⟩ | ⟨hn, x, hx, rfl⟩ | ⟨hn, x, hx, rfl⟩ | ⟨hn, x, hx, rfl⟩ | ⟨hn, x, hx, rfl⟩ | ⟨hn, x, hx, rfl⟩
  · exact ⟨fun e => absurd (hn.symm.trans e) (by decide), fun _ => rfl⟩
  · exact ⟨fun e => absurd (hn.symm.trans e) (by decide), fun _ => rfl⟩
  · exact ⟨fun e => absurd (hn.symm.trans e) (by decide), fun _ => rfl⟩
  · exact ⟨fun e => absurd (hn.symm.trans e) (by decide), fun _ => rfl⟩
  · exact ⟨fun e => absurd (hn.symm.trans e) (by decide), fun _ => rfl⟩
  · exact ⟨fun e => absurd (hn.symm.trans e) (by decide), fun _ => rfl⟩
  · exact ⟨fun e => absurd (hn.symm.trans e) (by decide), fun _ => rfl⟩
  · exact ⟨fun e => absurd (hn.symm.trans e) (by decide), fun _ => rfl⟩
  · exact ⟨fun e => absurd (hn.symm.trans e) (by decide), fun _ => rfl⟩
  · exact ⟨fun e => absurd (hn.symm.trans e) (by decide), fun _ => rfl⟩
  · exact ⟨fun e => absurd (hn.symm.trans e) (by decide), fun _ => rfl⟩
  · exact ⟨fun e => absurd (hn.symm.trans e) (by decide), fun _ => rfl⟩
  · exact ⟨fun e => absurd (hn.symm.trans e) (by decide), fun _ => rfl⟩
  · exact ⟨fun e => absurd (hn.symm.trans e) (by decide), fun _ => rfl⟩
  · exact ⟨fun e => absurd (hn.symm.trans e) (by decide), fun _ => rfl⟩
  · exact ⟨fun _ => ⟨x, hx, rfl⟩, fun e => absurd hn e⟩
  · exact ⟨fun e => absurd (hn.symm.trans e) (by decide), fun _ => rfl⟩
  · exact ⟨fun e => absurd (hn.symm.trans e) (by decide), fun _ => rfl⟩

theorem step_passes {F : CastFloats} (o : Options) (u : CliUse) (o' : Options) (h : storeUse F o u = some o') :
    (u.name = ascii "passes" → (fun u b => ∃ a, WritesInteger (u.value.getD []) a ∧ b = id a : CliUse → _ → Prop) u o'.passes) ∧ (u.name ≠ ascii "passes" → o'.passes = o.passes) := by
  rcases storeUse_cases h with ⟨hn, rfl⟩ | ⟨hn, rfl⟩ | ⟨hn, rfl⟩ | ⟨hn, rfl⟩ | ⟨hn, x, hx, rfl⟩ | ⟨hn, x, hx, rfl⟩ | ⟨hn, x, hx, rfl⟩ | ⟨hn, x, hx, rfl⟩ | ⟨hn, x, hx, rfl⟩ | ⟨hn, rfl⟩ | ⟨hn, rfl⟩ | ⟨hn, x, hx, rfl⟩ | ⟨hn, x, hx, rfl⟩ | ⟨hn, x, hx, rfl⟩ | ⟨hn, x, hx, rfl⟩ | ⟨hn, x, hx, rfl⟩ | ⟨hn, x, hx, rfl⟩ | ⟨hn, x, hx, rfl⟩
  · exact ⟨fun e => absurd (hn.symm.trans e) (by decide), fun _ => rfl⟩
  · exact ⟨fun e => absurd (hn.symm.trans e) (by decide), fun _ => rfl⟩
  · exact ⟨fun e => absurd (hn.symm.trans e) (by decide), fun _ => rfl⟩
  · exact ⟨fun e => absurd (hn.symm.trans e) (by decide), fun _ => rfl⟩
  · exact ⟨fun e => absurd (hn.symm.trans e) (by decide), fun _ => rfl⟩
  · exact ⟨fun e => absurd (hn.symm.trans e) (by decide), fun _ => rfl⟩
  · exact ⟨fun e => absurd (hn.symm.trans e) (by decide), fun _ => rfl⟩
  · exact ⟨fun e => absurd (hn.symm.trans e) (by decide), fun _ => rfl⟩
  · exact ⟨fun e => absurd (hn.symm.trans e) (by decide), fun _ => rfl⟩
  · exact ⟨fun e => absurd (hn.symm.trans e) (by decide), fun _ => rfl⟩
  · exact ⟨fun e => absurd (hn.symm.trans e) (by decide), fun _ => rfl⟩
  · exact ⟨fun e => absurd (hn.symm.trans e) (by decide), fun _ => rfl⟩
  · exact ⟨fun e => absurd (hn.symm.trans e) (by decide), fun _ => rfl⟩
  · exact ⟨fun e => absurd (hn.symm.trans e) (by decide), fun _ => rfl⟩
  · exact ⟨fun e => absurd (hn.symm.trans e) (by decide), fun _ => rfl⟩
  · exact ⟨fun e => absurd (hn.symm.trans e) (by decide), fun _ => rfl⟩
  · exact ⟨fun _ => ⟨x, castInt64_iff.1 hx, rfl⟩, fun e => absurd hn e⟩
  · exact ⟨fun e => absurd (hn.symm.trans e) (by decide), fun _ => rfl⟩

theorem step_checkpoint {F : CastFloats} (o : Options) (u : CliUse) (o' : Options) (h : storeUse F o u = some o') :
    (u.name = ascii "checkpoint" → (fun u b => ∃ a, WritesInteger (u.value.getD []) a ∧ b = id a : CliUse → _ → Prop) u o'.checkpoint) ∧ (u.name ≠ ascii "checkpoint" → o'.checkpoint = o.checkpoint) := by
  rcases storeUse_cases h with ⟨hn, rfl⟩ | ⟨hn, rfl⟩ | ⟨hn, rfl⟩ | ⟨hn, rfl⟩ | ⟨hn, x, hx, rfl⟩ | ⟨hn, x, hx, rfl⟩ | ⟨hn, x, hx, rfl⟩ | ⟨hn, x, hx, rfl⟩ | ⟨hn, x, hx, rfl⟩ | ⟨hn, rfl⟩ | ⟨hn, rfl⟩ | ⟨hn, x, hx, rfl⟩ | ⟨hn, x, hx, rfl⟩ | ⟨hn, x, hx, rfl⟩ | ⟨hn, x, hx, rfl⟩ | ⟨hn, x, hx, rfl⟩ | ⟨hn, x, hx, rfl⟩ | ⟨hn, x, hx, rfl⟩
  · exact ⟨fun e => absurd (hn.symm.trans e) (by decide), fun _ => rfl⟩
  · exact ⟨fun e => absurd (hn.symm.trans e) (by decide), fun _ => rfl⟩
  · exact ⟨fun e => absurd (hn.symm.trans e) (by decide), fun _ => rfl⟩
  · exact ⟨fun e => absurd (hn.symm.trans e) (by decide), fun _ => rfl⟩
  · exact ⟨fun e => absurd (hn.symm.trans e) (by decide), fun _ => rfl⟩
  · exact ⟨fun e => absurd (hn.symm.trans e) (by decide), fun _ => rfl⟩
  · exact ⟨fun e => absurd (hn.symm.trans e) (by decide), fun _ => rfl⟩
  · exact ⟨fun e => absurd (hn.symm.trans e) (by decide), fun _ => rfl⟩
  · exact ⟨fun e => absurd (hn.symm.trans e) (by decide), fun _ => rfl⟩
  · exact ⟨fun e => absurd (hn.symm.trans e) (by decide), fun _ => rfl⟩
  · exact ⟨fun e => absurd (hn.symm.trans e) (by decide), fun _ => rfl⟩
  · exact ⟨fun e => absurd (hn.symm.trans e) (by decide), fun _ => rfl⟩
  · exact ⟨fun e => absurd (hn.symm.trans e) (by decide), fun _ => rfl⟩
  · exact ⟨fun e => absurd (hn.symm.trans e) (by decide), fun _ => rfl⟩
  · exact ⟨fun e => absurd (hn.symm.trans e) (by decide), fun _ => rfl⟩
  · exact ⟨fun e => absurd (hn.symm.trans e) (by decide), fun _ => rfl⟩
  · exact ⟨fun e => absurd (hn.symm.trans e) (by decide), fun _ => rfl⟩
  · exact ⟨fun _ => ⟨x, castInt64_iff.1 hx, rfl⟩, fun e => absurd hn e⟩

/-- The options of `cdt` and `initialize`, and whether they take a value. -/
def knownOptions : List (Bytes × Bool) :=
  [(ascii "help", false), (ascii "version", false), (ascii "spherical", false), (ascii "toroidal", false), (ascii "simplices", true), (ascii "timeslices", true), (ascii "dimensions", true), (ascii "init", true), (ascii "foliate", true), (ascii "no-output", false), (ascii "output", false), (ascii "seed", true), (ascii "threads", true), (ascii "alpha", true), (ascii "k", true), (ascii "lambda", true), (ascii "passes", true), (ascii "checkpoint", true)]

/-- The use is that of a described option, with a value if it takes one. -/
def Fits (known : List (Bytes × Bool)) (u : CliUse) : Prop := (u.name, u.value.isSome) ∈ known

theorem spells_fits {table : List CliOption} {uses : List CliUse} {words : List Bytes} (h : Spells table uses words)
    {known : List (Bytes × Bool)} (hk : ∀ o ∈ table, (o.long, o.valued) ∈ known) : ∀ u ∈ uses, Fits known u := by
  have ref : ∀ n o, RefersTo table n o → o ∈ table := by
    rintro n o (h | ⟨-, h, -⟩)
    · exact h.1
    · exact h.1
  have hon : ∀ o ∈ table, o.valued = false → Fits known (on o) := by
    intro o ho hv; simpa [Fits, on, hv] using hk o ho
  have hset : ∀ o ∈ table, o.valued = true → ∀ v, Fits known (Spec.set o v) := by
    intro o ho hv v; simpa [Fits, Spec.set, hv] using hk o ho
  have hsw : ∀ cs os, Switches table cs os → ∀ u ∈ os.map on, Fits known u := by
    intro cs os h
    unfold Switches at h
    induction h with
    | nil => simp
    | cons h _ ih =>
      intro u hu
      rcases List.mem_cons.1 hu with rfl | hu
      · exact hon _ h.1.1 h.2
      · exact ih u hu
  induction h with
  | nothing => simp
  | stray _ _ ih => exact ih
  | stop => simp
  | nameless _ _ ih => exact ih
  | long _ _ hr hv _ ih =>
    intro u hu
    rcases List.mem_cons.1 hu with rfl | hu
    · exact hon _ (ref _ _ hr) hv
    · exact ih u hu
  | longEquals _ _ hr hv _ _ ih =>
    intro u hu
    rcases List.mem_cons.1 hu with rfl | hu
    · exact hset _ (ref _ _ hr) hv _
    · exact ih u hu
  | longThen _ _ hr hv _ _ ih =>
    intro u hu
    rcases List.mem_cons.1 hu with rfl | hu
    · exact hset _ (ref _ _ hr) hv _
    · exact ih u hu
  | short _ hs _ ih =>
    intro u hu
    rcases List.mem_append.1 hu with hu | hu
    · exact hsw _ _ hs u hu
    · exact ih u hu
  | shortWith hs hl hv _ _ ih =>
    intro u hu
    rcases List.mem_append.1 hu with hu | hu
    · exact hsw _ _ hs u hu
    · rcases List.mem_cons.1 hu with rfl | hu
      · exact hset _ hl.1 hv _
      · exact ih u hu
  | shortThen hs hl hv _ _ ih =>
    intro u hu
    rcases List.mem_append.1 hu with hu | hu
    · exact hsw _ _ hs u hu
    · rcases List.mem_cons.1 hu with rfl | hu
      · exact hset _ hl.1 hv _
      · exact ih u hu

theorem switch_of {uses : List CliUse} {name : String} {b b0 : Bool} (h0 : b0 = false)
    (h : (∃ u ∈ uses, u.name = ascii name ∧ b = true) ∨ (∀ u ∈ uses, u.name ≠ ascii name) ∧ b = b0) :
    Switch uses name b := by
  subst h0
  rcases h with ⟨u, hu, hn, rfl⟩ | ⟨hn, rfl⟩
  · exact ⟨fun _ => ⟨u, hu, hn⟩, fun _ => rfl⟩
  · exact ⟨by simp, fun ⟨u, hu, h⟩ => absurd h (hn u hu)⟩

theorem setting_of {α β : Type} {known : List (Bytes × Bool)} {uses : List CliUse} (hf : ∀ u ∈ uses, Fits known u)
    {name : String} (hk : (ascii name, false) ∉ known) {reads : Bytes → α → Prop} {put : α → β} {d b : β}
    (h : (∃ u ∈ uses, u.name = ascii name ∧ ∃ a, reads (u.value.getD []) a ∧ b = put a) ∨
      (∀ u ∈ uses, u.name ≠ ascii name) ∧ b = d) : Setting uses name reads put d b := by
  rcases h with ⟨u, hu, hn, a, ha, e⟩ | h
  · left
    have := hf u hu
    obtain ⟨n, v⟩ := u
    simp only at hn; subst hn
    cases v with
    | none => exact absurd this hk
    | some v => exact ⟨v, a, hu, ha, e⟩
  · exact .inr h

theorem use_unique {uses : List CliUse} (hn : (uses.map (·.name)).Nodup) {u w : CliUse} (hu : u ∈ uses) (hw : w ∈ uses)
    (h : u.name = w.name) : u = w := List.inj_on_of_nodup_map hn hu hw h

theorem switch_unique {uses : List CliUse} {name : String} {a b : Bool} (ha : Switch uses name a)
    (hb : Switch uses name b) : a = b := by
  unfold Switch at *
  rw [Bool.eq_iff_iff, ha, hb]

theorem setting_unique {α β : Type} {uses : List CliUse} (hn : (uses.map (·.name)).Nodup) {name : String}
    {reads : Bytes → α → Prop} (hr : ∀ v x y, reads v x → reads v y → x = y) {put : α → β} {d a b : β}
    (ha : Setting uses name reads put d a) (hb : Setting uses name reads put d b) : a = b := by
  rcases ha with ⟨v, x, hv, hx, rfl⟩ | ⟨ha, rfl⟩ <;> rcases hb with ⟨w, y, hw, hy, rfl⟩ | ⟨hb, rfl⟩
  · have := use_unique hn hv hw rfl
    cases this
    rw [hr v x y hx hy]
  · exact absurd rfl (hb _ hv)
  · exact absurd rfl (ha _ hw)
  · rfl

theorem setting_reads {α β : Type} {uses : List CliUse} (hn : (uses.map (·.name)).Nodup) {name : String}
    {reads : Bytes → α → Prop} {put : α → β} {d a : β} (ha : Setting uses name reads put d a) {u : CliUse}
    (hu : u ∈ uses) (h : u.name = ascii name) : ∃ x, reads (u.value.getD []) x := by
  rcases ha with ⟨v, x, hv, hx, rfl⟩ | ⟨ha, rfl⟩
  · have := use_unique hn hu hv h
    subst this
    exact ⟨x, hx⟩
  · exact absurd h (ha u hu)

theorem integer_unique (v : Bytes) (x y : ℤ) (hx : WritesInteger v x) (hy : WritesInteger v y) : x = y := by
  rw [← castInt64_iff] at hx hy
  exact Option.some.inj (hx.symm.trans hy)

theorem word_unique (v : Bytes) (x y : BitVec 64) (hx : WritesWord v x) (hy : WritesWord v y) : x = y := by
  rw [← castUInt64_iff] at hx hy
  exact Option.some.inj (hx.symm.trans hy)

theorem means_of_store {F : CastFloats} {uses : List CliUse} (hf : ∀ u ∈ uses, Fits knownOptions u) {o : Options}
    (h : storeUses (storeUse F) [] {} uses = some o) : SettingsOf F uses o where
  once := (storeUses_once h).1
  help := switch_of rfl (storeUses_field (·.help) (ascii "help") (fun _ b => b = true) (step_help (F := F)) h)
  version := switch_of rfl (storeUses_field (·.version) (ascii "version") (fun _ b => b = true) (step_version (F := F)) h)
  spherical := switch_of rfl (storeUses_field (·.spherical) (ascii "spherical") (fun _ b => b = true) (step_spherical (F := F)) h)
  toroidal := switch_of rfl (storeUses_field (·.toroidal) (ascii "toroidal") (fun _ b => b = true) (step_toroidal (F := F)) h)
  simplices := setting_of hf (by decide) (storeUses_field (·.simplices) (ascii "simplices") (fun u b => ∃ a, WritesInteger (u.value.getD []) a ∧ b = some a) (step_simplices (F := F)) h)
  timeslices := setting_of hf (by decide) (storeUses_field (·.timeslices) (ascii "timeslices") (fun u b => ∃ a, WritesInteger (u.value.getD []) a ∧ b = some a) (step_timeslices (F := F)) h)
  dimensions := setting_of hf (by decide) (storeUses_field (·.dimensions) (ascii "dimensions") (fun u b => ∃ a, WritesInteger (u.value.getD []) a ∧ b = id a) (step_dimensions (F := F)) h)
  initialRadius := setting_of hf (by decide) (storeUses_field (·.initialRadius) (ascii "init") (fun u b => ∃ a, (fun v x => F.double v = some x) (u.value.getD []) a ∧ b = id a) (step_initialRadius (F := F)) h)
  foliationSpacing := setting_of hf (by decide) (storeUses_field (·.foliationSpacing) (ascii "foliate") (fun u b => ∃ a, (fun v x => F.double v = some x) (u.value.getD []) a ∧ b = id a) (step_foliationSpacing (F := F)) h)
  noOutput := switch_of rfl (storeUses_field (·.noOutput) (ascii "no-output") (fun _ b => b = true) (step_noOutput (F := F)) h)
  output := switch_of rfl (storeUses_field (·.output) (ascii "output") (fun _ b => b = true) (step_output (F := F)) h)
  seed := setting_of hf (by decide) (storeUses_field (·.seed) (ascii "seed") (fun u b => ∃ a, WritesWord (u.value.getD []) a ∧ b = some a) (step_seed (F := F)) h)
  threads := setting_of hf (by decide) (storeUses_field (·.threads) (ascii "threads") (fun u b => ∃ a, WritesInteger (u.value.getD []) a ∧ b = id a) (step_threads (F := F)) h)
  alpha := setting_of hf (by decide) (storeUses_field (·.alpha) (ascii "alpha") (fun u b => ∃ a, (fun v x => F.longDouble v = some x) (u.value.getD []) a ∧ b = some a) (step_alpha (F := F)) h)
  k := setting_of hf (by decide) (storeUses_field (·.k) (ascii "k") (fun u b => ∃ a, (fun v x => F.longDouble v = some x) (u.value.getD []) a ∧ b = some a) (step_k (F := F)) h)
  lambda := setting_of hf (by decide) (storeUses_field (·.lambda) (ascii "lambda") (fun u b => ∃ a, (fun v x => F.longDouble v = some x) (u.value.getD []) a ∧ b = some a) (step_lambda (F := F)) h)
  passes := setting_of hf (by decide) (storeUses_field (·.passes) (ascii "passes") (fun u b => ∃ a, WritesInteger (u.value.getD []) a ∧ b = id a) (step_passes (F := F)) h)
  checkpoint := setting_of hf (by decide) (storeUses_field (·.checkpoint) (ascii "checkpoint") (fun u b => ∃ a, WritesInteger (u.value.getD []) a ∧ b = id a) (step_checkpoint (F := F)) h)

theorem means_unique {F : CastFloats} {uses : List CliUse} {o o' : Options} (h : SettingsOf F uses o) (h' : SettingsOf F uses o') :
    o = o' := by
  have hn := h.once
  have hfl : ∀ (f : Bytes → Option LD) v x y, f v = some x → f v = some y → x = y :=
    fun f v x y hx hy => Option.some.inj (hx.symm.trans hy)
  have e_help := switch_unique h.help h'.help
  have e_version := switch_unique h.version h'.version
  have e_spherical := switch_unique h.spherical h'.spherical
  have e_toroidal := switch_unique h.toroidal h'.toroidal
  have e_simplices := setting_unique hn integer_unique h.simplices h'.simplices
  have e_timeslices := setting_unique hn integer_unique h.timeslices h'.timeslices
  have e_dimensions := setting_unique hn integer_unique h.dimensions h'.dimensions
  have e_initialRadius := setting_unique hn (hfl F.double) h.initialRadius h'.initialRadius
  have e_foliationSpacing := setting_unique hn (hfl F.double) h.foliationSpacing h'.foliationSpacing
  have e_noOutput := switch_unique h.noOutput h'.noOutput
  have e_output := switch_unique h.output h'.output
  have e_seed := setting_unique hn word_unique h.seed h'.seed
  have e_threads := setting_unique hn integer_unique h.threads h'.threads
  have e_alpha := setting_unique hn (hfl F.longDouble) h.alpha h'.alpha
  have e_k := setting_unique hn (hfl F.longDouble) h.k h'.k
  have e_lambda := setting_unique hn (hfl F.longDouble) h.lambda h'.lambda
  have e_passes := setting_unique hn integer_unique h.passes h'.passes
  have e_checkpoint := setting_unique hn integer_unique h.checkpoint h'.checkpoint
  cases o; cases o'
  simp only at *
  subst e_help e_version e_spherical e_toroidal e_simplices e_timeslices e_dimensions e_initialRadius e_foliationSpacing e_noOutput e_output e_seed e_threads e_alpha e_k e_lambda e_passes e_checkpoint
  rfl

theorem store_of_means {F : CastFloats} {uses : List CliUse} (hf : ∀ u ∈ uses, Fits knownOptions u) {o : Options}
    (h : SettingsOf F uses o) : storeUses (storeUse F) [] {} uses = some o := by
  have hn := h.once
  obtain ⟨o', ho'⟩ := storeUses_total (store := storeUse F) (uses := uses) (seen := []) (o := {}) (by
    intro u hu o1
    have hk := hf u hu
    simp only [Fits, knownOptions, List.mem_cons, Prod.mk.injEq, List.not_mem_nil, or_false] at hk
    rcases hk with ⟨hk, -⟩ | ⟨hk, -⟩ | ⟨hk, -⟩ | ⟨hk, -⟩ | ⟨hk, -⟩ | ⟨hk, -⟩ | ⟨hk, -⟩ | ⟨hk, -⟩ | ⟨hk, -⟩ | ⟨hk, -⟩ | ⟨hk, -⟩ | ⟨hk, -⟩ | ⟨hk, -⟩ | ⟨hk, -⟩ | ⟨hk, -⟩ | ⟨hk, -⟩ | ⟨hk, -⟩ | ⟨hk, -⟩
    · unfold storeUse; simp only;  rw [if_pos hk]; rfl
    · unfold storeUse; simp only; rw [if_neg (by rw [hk]; decide)]; rw [if_pos hk]; rfl
    · unfold storeUse; simp only; rw [if_neg (by rw [hk]; decide)]; rw [if_neg (by rw [hk]; decide)]; rw [if_pos hk]; rfl
    · unfold storeUse; simp only; rw [if_neg (by rw [hk]; decide)]; rw [if_neg (by rw [hk]; decide)]; rw [if_neg (by rw [hk]; decide)]; rw [if_pos hk]; rfl
    · obtain ⟨x, hx⟩ := setting_reads hn h.simplices hu hk
      unfold storeUse; simp only; rw [if_neg (by rw [hk]; decide)]; rw [if_neg (by rw [hk]; decide)]; rw [if_neg (by rw [hk]; decide)]; rw [if_neg (by rw [hk]; decide)]; rw [if_pos hk, show castInt64 (u.value.getD []) = some x from castInt64_iff.2 hx]; rfl
    · obtain ⟨x, hx⟩ := setting_reads hn h.timeslices hu hk
      unfold storeUse; simp only; rw [if_neg (by rw [hk]; decide)]; rw [if_neg (by rw [hk]; decide)]; rw [if_neg (by rw [hk]; decide)]; rw [if_neg (by rw [hk]; decide)]; rw [if_neg (by rw [hk]; decide)]; rw [if_pos hk, show castInt64 (u.value.getD []) = some x from castInt64_iff.2 hx]; rfl
    · obtain ⟨x, hx⟩ := setting_reads hn h.dimensions hu hk
      unfold storeUse; simp only; rw [if_neg (by rw [hk]; decide)]; rw [if_neg (by rw [hk]; decide)]; rw [if_neg (by rw [hk]; decide)]; rw [if_neg (by rw [hk]; decide)]; rw [if_neg (by rw [hk]; decide)]; rw [if_neg (by rw [hk]; decide)]; rw [if_pos hk, show castInt64 (u.value.getD []) = some x from castInt64_iff.2 hx]; rfl
    · obtain ⟨x, hx⟩ := setting_reads hn h.initialRadius hu hk
      unfold storeUse; simp only; rw [if_neg (by rw [hk]; decide)]; rw [if_neg (by rw [hk]; decide)]; rw [if_neg (by rw [hk]; decide)]; rw [if_neg (by rw [hk]; decide)]; rw [if_neg (by rw [hk]; decide)]; rw [if_neg (by rw [hk]; decide)]; rw [if_neg (by rw [hk]; decide)]; rw [if_pos hk, show F.double (u.value.getD []) = some x from hx]; rfl
    · obtain ⟨x, hx⟩ := setting_reads hn h.foliationSpacing hu hk
      unfold storeUse; simp only; rw [if_neg (by rw [hk]; decide)]; rw [if_neg (by rw [hk]; decide)]; rw [if_neg (by rw [hk]; decide)]; rw [if_neg (by rw [hk]; decide)]; rw [if_neg (by rw [hk]; decide)]; rw [if_neg (by rw [hk]; decide)]; rw [if_neg (by rw [hk]; decide)]; rw [if_neg (by rw [hk]; decide)]; rw [if_pos hk, show F.double (u.value.getD []) = some x from hx]; rfl
    · unfold storeUse; simp only; rw [if_neg (by rw [hk]; decide)]; rw [if_neg (by rw [hk]; decide)]; rw [if_neg (by rw [hk]; decide)]; rw [if_neg (by rw [hk]; decide)]; rw [if_neg (by rw [hk]; decide)]; rw [if_neg (by rw [hk]; decide)]; rw [if_neg (by rw [hk]; decide)]; rw [if_neg (by rw [hk]; decide)]; rw [if_neg (by rw [hk]; decide)]; rw [if_pos hk]; rfl
    · unfold storeUse; simp only; rw [if_neg (by rw [hk]; decide)]; rw [if_neg (by rw [hk]; decide)]; rw [if_neg (by rw [hk]; decide)]; rw [if_neg (by rw [hk]; decide)]; rw [if_neg (by rw [hk]; decide)]; rw [if_neg (by rw [hk]; decide)]; rw [if_neg (by rw [hk]; decide)]; rw [if_neg (by rw [hk]; decide)]; rw [if_neg (by rw [hk]; decide)]; rw [if_neg (by rw [hk]; decide)]; rw [if_pos hk]; rfl
    · obtain ⟨x, hx⟩ := setting_reads hn h.seed hu hk
      unfold storeUse; simp only; rw [if_neg (by rw [hk]; decide)]; rw [if_neg (by rw [hk]; decide)]; rw [if_neg (by rw [hk]; decide)]; rw [if_neg (by rw [hk]; decide)]; rw [if_neg (by rw [hk]; decide)]; rw [if_neg (by rw [hk]; decide)]; rw [if_neg (by rw [hk]; decide)]; rw [if_neg (by rw [hk]; decide)]; rw [if_neg (by rw [hk]; decide)]; rw [if_neg (by rw [hk]; decide)]; rw [if_neg (by rw [hk]; decide)]; rw [if_pos hk, show castUInt64 (u.value.getD []) = some x from castUInt64_iff.2 hx]; rfl
    · obtain ⟨x, hx⟩ := setting_reads hn h.threads hu hk
      unfold storeUse; simp only; rw [if_neg (by rw [hk]; decide)]; rw [if_neg (by rw [hk]; decide)]; rw [if_neg (by rw [hk]; decide)]; rw [if_neg (by rw [hk]; decide)]; rw [if_neg (by rw [hk]; decide)]; rw [if_neg (by rw [hk]; decide)]; rw [if_neg (by rw [hk]; decide)]; rw [if_neg (by rw [hk]; decide)]; rw [if_neg (by rw [hk]; decide)]; rw [if_neg (by rw [hk]; decide)]; rw [if_neg (by rw [hk]; decide)]; rw [if_neg (by rw [hk]; decide)]; rw [if_pos hk, show castInt64 (u.value.getD []) = some x from castInt64_iff.2 hx]; rfl
    · obtain ⟨x, hx⟩ := setting_reads hn h.alpha hu hk
      unfold storeUse; simp only; rw [if_neg (by rw [hk]; decide)]; rw [if_neg (by rw [hk]; decide)]; rw [if_neg (by rw [hk]; decide)]; rw [if_neg (by rw [hk]; decide)]; rw [if_neg (by rw [hk]; decide)]; rw [if_neg (by rw [hk]; decide)]; rw [if_neg (by rw [hk]; decide)]; rw [if_neg (by rw [hk]; decide)]; rw [if_neg (by rw [hk]; decide)]; rw [if_neg (by rw [hk]; decide)]; rw [if_neg (by rw [hk]; decide)]; rw [if_neg (by rw [hk]; decide)]; rw [if_neg (by rw [hk]; decide)]; rw [if_pos hk, show F.longDouble (u.value.getD []) = some x from hx]; rfl
    · obtain ⟨x, hx⟩ := setting_reads hn h.k hu hk
      unfold storeUse; simp only; rw [if_neg (by rw [hk]; decide)]; rw [if_neg (by rw [hk]; decide)]; rw [if_neg (by rw [hk]; decide)]; rw [if_neg (by rw [hk]; decide)]; rw [if_neg (by rw [hk]; decide)]; rw [if_neg (by rw [hk]; decide)]; rw [if_neg (by rw [hk]; decide)]; rw [if_neg (by rw [hk]; decide)]; rw [if_neg (by rw [hk]; decide)]; rw [if_neg (by rw [hk]; decide)]; rw [if_neg (by rw [hk]; decide)]; rw [if_neg (by rw [hk]; decide)]; rw [if_neg (by rw [hk]; decide)]; rw [if_neg (by rw [hk]; decide)]; rw [if_pos hk, show F.longDouble (u.value.getD []) = some x from hx]; rfl
    · obtain ⟨x, hx⟩ := setting_reads hn h.lambda hu hk
      unfold storeUse; simp only; rw [if_neg (by rw [hk]; decide)]; rw [if_neg (by rw [hk]; decide)]; rw [if_neg (by rw [hk]; decide)]; rw [if_neg (by rw [hk]; decide)]; rw [if_neg (by rw [hk]; decide)]; rw [if_neg (by rw [hk]; decide)]; rw [if_neg (by rw [hk]; decide)]; rw [if_neg (by rw [hk]; decide)]; rw [if_neg (by rw [hk]; decide)]; rw [if_neg (by rw [hk]; decide)]; rw [if_neg (by rw [hk]; decide)]; rw [if_neg (by rw [hk]; decide)]; rw [if_neg (by rw [hk]; decide)]; rw [if_neg (by rw [hk]; decide)]; rw [if_neg (by rw [hk]; decide)]; rw [if_pos hk, show F.longDouble (u.value.getD []) = some x from hx]; rfl
    · obtain ⟨x, hx⟩ := setting_reads hn h.passes hu hk
      unfold storeUse; simp only; rw [if_neg (by rw [hk]; decide)]; rw [if_neg (by rw [hk]; decide)]; rw [if_neg (by rw [hk]; decide)]; rw [if_neg (by rw [hk]; decide)]; rw [if_neg (by rw [hk]; decide)]; rw [if_neg (by rw [hk]; decide)]; rw [if_neg (by rw [hk]; decide)]; rw [if_neg (by rw [hk]; decide)]; rw [if_neg (by rw [hk]; decide)]; rw [if_neg (by rw [hk]; decide)]; rw [if_neg (by rw [hk]; decide)]; rw [if_neg (by rw [hk]; decide)]; rw [if_neg (by rw [hk]; decide)]; rw [if_neg (by rw [hk]; decide)]; rw [if_neg (by rw [hk]; decide)]; rw [if_neg (by rw [hk]; decide)]; rw [if_pos hk, show castInt64 (u.value.getD []) = some x from castInt64_iff.2 hx]; rfl
    · obtain ⟨x, hx⟩ := setting_reads hn h.checkpoint hu hk
      unfold storeUse; simp only; rw [if_neg (by rw [hk]; decide)]; rw [if_neg (by rw [hk]; decide)]; rw [if_neg (by rw [hk]; decide)]; rw [if_neg (by rw [hk]; decide)]; rw [if_neg (by rw [hk]; decide)]; rw [if_neg (by rw [hk]; decide)]; rw [if_neg (by rw [hk]; decide)]; rw [if_neg (by rw [hk]; decide)]; rw [if_neg (by rw [hk]; decide)]; rw [if_neg (by rw [hk]; decide)]; rw [if_neg (by rw [hk]; decide)]; rw [if_neg (by rw [hk]; decide)]; rw [if_neg (by rw [hk]; decide)]; rw [if_neg (by rw [hk]; decide)]; rw [if_neg (by rw [hk]; decide)]; rw [if_neg (by rw [hk]; decide)]; rw [if_neg (by rw [hk]; decide)]; rw [if_pos hk, show castInt64 (u.value.getD []) = some x from castInt64_iff.2 hx]; rfl
    ) hn (by simp)
  rw [ho', means_unique (means_of_store hf ho') h]

/-! The viewer -/

theorem storeViewerUse_cases {o o' : ViewerOptions} {u : CliUse} (h : storeViewerUse o u = some o') :
    (u.name = ascii "help" ∧ o' = { o with help := true }) ∨ (u.name = ascii "version" ∧ o' = { o with version := true }) ∨
    (u.name = ascii "manifest" ∧ o' = { o with manifest := some (u.value.getD []) }) ∨
    (u.name = ascii "fixture" ∧ o' = { o with fixture := u.value.getD [] }) ∨
    (u.name = ascii "output" ∧ o' = { o with output := u.value.getD [] }) := by
  unfold storeViewerUse at h
  simp only at h
  split_ifs at h with h1 h2 h3 h4 h5
  · exact .inl ⟨h1, (Option.some.inj h).symm⟩
  · exact .inr (.inl ⟨h2, (Option.some.inj h).symm⟩)
  · exact .inr (.inr (.inl ⟨h3, (Option.some.inj h).symm⟩))
  · exact .inr (.inr (.inr (.inl ⟨h4, (Option.some.inj h).symm⟩)))
  · exact .inr (.inr (.inr (.inr ⟨h5, (Option.some.inj h).symm⟩)))

/-- The options of the viewer, and whether they take a value. -/
def knownViewerOptions : List (Bytes × Bool) :=
  [(ascii "help", false), (ascii "version", false), (ascii "manifest", true), (ascii "fixture", true),
   (ascii "output", true)]

theorem viewer_step_help (o : ViewerOptions) (u : CliUse) (o' : ViewerOptions) (h : storeViewerUse o u = some o') :
    (u.name = ascii "help" → (fun _ b => b = true : CliUse → _ → Prop) u o'.help) ∧ (u.name ≠ ascii "help" → o'.help = o.help) := by
  rcases storeViewerUse_cases h with ⟨hn, rfl⟩ | ⟨hn, rfl⟩ | ⟨hn, rfl⟩ | ⟨hn, rfl⟩ | ⟨hn, rfl⟩
  · exact ⟨fun _ => rfl, fun e => absurd hn e⟩
  · exact ⟨fun e => absurd (hn.symm.trans e) (by decide), fun _ => rfl⟩
  · exact ⟨fun e => absurd (hn.symm.trans e) (by decide), fun _ => rfl⟩
  · exact ⟨fun e => absurd (hn.symm.trans e) (by decide), fun _ => rfl⟩
  · exact ⟨fun e => absurd (hn.symm.trans e) (by decide), fun _ => rfl⟩

theorem viewer_step_version (o : ViewerOptions) (u : CliUse) (o' : ViewerOptions) (h : storeViewerUse o u = some o') :
    (u.name = ascii "version" → (fun _ b => b = true : CliUse → _ → Prop) u o'.version) ∧ (u.name ≠ ascii "version" → o'.version = o.version) := by
  rcases storeViewerUse_cases h with ⟨hn, rfl⟩ | ⟨hn, rfl⟩ | ⟨hn, rfl⟩ | ⟨hn, rfl⟩ | ⟨hn, rfl⟩
  · exact ⟨fun e => absurd (hn.symm.trans e) (by decide), fun _ => rfl⟩
  · exact ⟨fun _ => rfl, fun e => absurd hn e⟩
  · exact ⟨fun e => absurd (hn.symm.trans e) (by decide), fun _ => rfl⟩
  · exact ⟨fun e => absurd (hn.symm.trans e) (by decide), fun _ => rfl⟩
  · exact ⟨fun e => absurd (hn.symm.trans e) (by decide), fun _ => rfl⟩

theorem viewer_step_manifest (o : ViewerOptions) (u : CliUse) (o' : ViewerOptions) (h : storeViewerUse o u = some o') :
    (u.name = ascii "manifest" → (fun u b => ∃ a, (fun v x => v = x) (u.value.getD []) a ∧ b = some a : CliUse → _ → Prop) u o'.manifest) ∧ (u.name ≠ ascii "manifest" → o'.manifest = o.manifest) := by
  rcases storeViewerUse_cases h with ⟨hn, rfl⟩ | ⟨hn, rfl⟩ | ⟨hn, rfl⟩ | ⟨hn, rfl⟩ | ⟨hn, rfl⟩
  · exact ⟨fun e => absurd (hn.symm.trans e) (by decide), fun _ => rfl⟩
  · exact ⟨fun e => absurd (hn.symm.trans e) (by decide), fun _ => rfl⟩
  · exact ⟨fun _ => ⟨_, rfl, rfl⟩, fun e => absurd hn e⟩
  · exact ⟨fun e => absurd (hn.symm.trans e) (by decide), fun _ => rfl⟩
  · exact ⟨fun e => absurd (hn.symm.trans e) (by decide), fun _ => rfl⟩

theorem viewer_step_fixture (o : ViewerOptions) (u : CliUse) (o' : ViewerOptions) (h : storeViewerUse o u = some o') :
    (u.name = ascii "fixture" → (fun u b => ∃ a, (fun v x => v = x) (u.value.getD []) a ∧ b = id a : CliUse → _ → Prop) u o'.fixture) ∧ (u.name ≠ ascii "fixture" → o'.fixture = o.fixture) := by
  rcases storeViewerUse_cases h with ⟨hn, rfl⟩ | ⟨hn, rfl⟩ | ⟨hn, rfl⟩ | ⟨hn, rfl⟩ | ⟨hn, rfl⟩
  · exact ⟨fun e => absurd (hn.symm.trans e) (by decide), fun _ => rfl⟩
  · exact ⟨fun e => absurd (hn.symm.trans e) (by decide), fun _ => rfl⟩
  · exact ⟨fun e => absurd (hn.symm.trans e) (by decide), fun _ => rfl⟩
  · exact ⟨fun _ => ⟨_, rfl, rfl⟩, fun e => absurd hn e⟩
  · exact ⟨fun e => absurd (hn.symm.trans e) (by decide), fun _ => rfl⟩

theorem viewer_step_output (o : ViewerOptions) (u : CliUse) (o' : ViewerOptions) (h : storeViewerUse o u = some o') :
    (u.name = ascii "output" → (fun u b => ∃ a, (fun v x => v = x) (u.value.getD []) a ∧ b = id a : CliUse → _ → Prop) u o'.output) ∧ (u.name ≠ ascii "output" → o'.output = o.output) := by
  rcases storeViewerUse_cases h with ⟨hn, rfl⟩ | ⟨hn, rfl⟩ | ⟨hn, rfl⟩ | ⟨hn, rfl⟩ | ⟨hn, rfl⟩
  · exact ⟨fun e => absurd (hn.symm.trans e) (by decide), fun _ => rfl⟩
  · exact ⟨fun e => absurd (hn.symm.trans e) (by decide), fun _ => rfl⟩
  · exact ⟨fun e => absurd (hn.symm.trans e) (by decide), fun _ => rfl⟩
  · exact ⟨fun e => absurd (hn.symm.trans e) (by decide), fun _ => rfl⟩
  · exact ⟨fun _ => ⟨_, rfl, rfl⟩, fun e => absurd hn e⟩

theorem viewer_means_of_store {uses : List CliUse} (hf : ∀ u ∈ uses, Fits knownViewerOptions u) {o : ViewerOptions}
    (h : storeUses storeViewerUse [] {} uses = some o) : ViewerSettingsOf uses o where
  once := (storeUses_once h).1
  help := switch_of rfl (storeUses_field (·.help) (ascii "help") (fun _ b => b = true) viewer_step_help h)
  version := switch_of rfl (storeUses_field (·.version) (ascii "version") (fun _ b => b = true) viewer_step_version h)
  manifest := setting_of hf (by decide) (storeUses_field (·.manifest) (ascii "manifest") (fun u b => ∃ a, (fun v x => v = x) (u.value.getD []) a ∧ b = some a) viewer_step_manifest h)
  fixture := setting_of hf (by decide) (storeUses_field (·.fixture) (ascii "fixture") (fun u b => ∃ a, (fun v x => v = x) (u.value.getD []) a ∧ b = id a) viewer_step_fixture h)
  output := setting_of hf (by decide) (storeUses_field (·.output) (ascii "output") (fun u b => ∃ a, (fun v x => v = x) (u.value.getD []) a ∧ b = id a) viewer_step_output h)

theorem viewer_means_unique {uses : List CliUse} {o o' : ViewerOptions} (h : ViewerSettingsOf uses o)
    (h' : ViewerSettingsOf uses o') : o = o' := by
  have hn := h.once
  have e_help := switch_unique h.help h'.help
  have e_version := switch_unique h.version h'.version
  have e_manifest := setting_unique hn (fun v x y hx hy => hx.symm.trans hy) h.manifest h'.manifest
  have e_fixture := setting_unique hn (fun v x y hx hy => hx.symm.trans hy) h.fixture h'.fixture
  have e_output := setting_unique hn (fun v x y hx hy => hx.symm.trans hy) h.output h'.output
  cases o; cases o'
  simp only at *
  subst e_help e_version e_manifest e_fixture e_output
  rfl

theorem viewer_store_of_means {uses : List CliUse} (hf : ∀ u ∈ uses, Fits knownViewerOptions u) {o : ViewerOptions}
    (h : ViewerSettingsOf uses o) : storeUses storeViewerUse [] {} uses = some o := by
  have hn := h.once
  obtain ⟨o', ho'⟩ := storeUses_total (store := storeViewerUse) (uses := uses) (seen := []) (o := {}) (by
    intro u hu o1
    have hk := hf u hu
    simp only [Fits, knownViewerOptions, List.mem_cons, Prod.mk.injEq, List.not_mem_nil, or_false] at hk
    rcases hk with ⟨hk, -⟩ | ⟨hk, -⟩ | ⟨hk, -⟩ | ⟨hk, -⟩ | ⟨hk, -⟩ <;>
      (unfold storeViewerUse; simp only; repeat' split) <;> rfl)
    hn (by simp)
  rw [ho', viewer_means_unique (viewer_means_of_store hf ho') h]

end CDT
