import Verif.Spec.CommandLine
import Verif.Lemmas.Trailer
/- Lemmas for C104. -/
namespace CDT
open Spec

namespace Orderly
variable {table : List CliOption} (ok : Spec.Orderly table)
include ok

theorem long_inj {o p : CliOption} (ho : o ∈ table) (hp : p ∈ table) (h : o.long = p.long) : o = p :=
  List.inj_on_of_nodup_map ok.names ho hp h

theorem letter_inj {c : Byte} {o p : CliOption} (ho : Lettered table c o) (hp : Lettered table c p) : o = p := by
  have hl := ok.letters
  clear ok
  obtain ⟨ho, h1⟩ := ho
  obtain ⟨hp, h2⟩ := hp
  induction table with
  | nil => simp at ho
  | cons q t ih =>
    rcases List.mem_cons.1 ho with rfl | ho' <;> rcases List.mem_cons.1 hp with rfl | hp'
    · rfl
    · rw [List.filterMap_cons_some h1] at hl
      exact absurd (List.mem_filterMap.2 ⟨p, hp', h2⟩) (List.nodup_cons.1 hl).1
    · rw [List.filterMap_cons_some h2] at hl
      exact absurd (List.mem_filterMap.2 ⟨o, ho', h1⟩) (List.nodup_cons.1 hl).1
    · refine ih ?_ ho' hp'
      cases hq : q.letter with
      | none => rwa [List.filterMap_cons_none hq] at hl
      | some d => rw [List.filterMap_cons_some hq] at hl; exact (List.nodup_cons.1 hl).2

theorem letter_ne {c : Byte} {o : CliOption} (ho : Lettered table c o) : c ≠ minusSign := by
  rintro rfl
  exact ok.dashless (List.mem_filterMap.2 ⟨o, ho.1, ho.2⟩)

theorem nodup : table.Nodup := List.Nodup.of_map _ ok.names

theorem called_inj {n : Bytes} {o p : CliOption} (ho : Called table n o) (hp : Called table n p) : o = p := by
  rcases ho with ⟨ho, rfl | ⟨c, hc, rfl⟩⟩ <;> rcases hp with ⟨hp, h | ⟨d, hd, h⟩⟩
  · exact long_inj ok ho hp h.symm
  · exact absurd (by rw [h]; rfl) (ok.plain o ho).2
  · exact absurd (by rw [h]; rfl) (ok.plain p hp).2
  · simp only [List.cons.injEq, and_true, true_and] at h
    subst h
    exact letter_inj ok ⟨ho, hc⟩ ⟨hp, hd⟩

theorem called_dash {c : Byte} {o : CliOption} : Called table [minusSign, c] o ↔ Lettered table c o := by
  constructor
  · rintro ⟨ho, h | ⟨d, hd, h⟩⟩
    · exact absurd (by rw [h]; rfl) (ok.plain o ho).2
    · simp only [List.cons.injEq, and_true, true_and] at h
      subst h; exact ⟨ho, hd⟩
  · rintro ⟨ho, h⟩
    exact ⟨ho, .inr ⟨c, h, rfl⟩⟩

theorem no_prefix {n : Bytes} (hn : n.head? = some minusSign) {o : CliOption} (ho : o ∈ table) : ¬n <+: o.long := by
  rintro ⟨t, ht⟩
  refine (ok.plain o ho).2 ?_
  rw [← ht]
  cases n with
  | nil => simp at hn
  | cons a n => simpa using hn

end Orderly

theorem mem_called {table : List CliOption} {n : Bytes} {o : CliOption} :
    o ∈ table.filter (·.called n) ↔ Called table n o := by
  simp only [List.mem_filter, Called, CliOption.called, Bool.or_eq_true, beq_iff_eq]
  refine and_congr_right fun _ => or_congr_right ?_
  cases o.letter with
  | none => simp
  | some c => simp

theorem list_nil_iff {l : List CliOption} : l = [] ↔ ∀ p, p ∉ l := List.eq_nil_iff_forall_not_mem

theorem list_one {l : List CliOption} (hl : l.Nodup) {o : CliOption} (ho : o ∈ l) (h : ∀ p ∈ l, p = o) : l = [o] := by
  cases l with
  | nil => simp at ho
  | cons a t =>
    have := h a (by simp); subst this
    cases t with
    | nil => rfl
    | cons b t =>
      have := h b (by simp); subst this
      simp at hl

variable {table : List CliOption} (ok : Spec.Orderly table)
include ok

theorem findCli_called {g : Bool} {n : Bytes} {o : CliOption} (h : Called table n o) :
    findCli table g n = some (some o) := by
  have : table.filter (·.called n) = [o] :=
    list_one ((Orderly.nodup ok).filter _) (mem_called.2 h) fun p hp => Orderly.called_inj ok (mem_called.1 hp) h
  unfold findCli; rw [this]

theorem findCli_refers {n : Bytes} {o : CliOption} : findCli table true n = some (some o) ↔ RefersTo table n o := by
  constructor
  · intro h
    by_cases hc : ∃ p, Called table n p
    · obtain ⟨p, hp⟩ := hc
      rw [findCli_called ok hp] at h
      cases h; exact .inl hp
    · have hn : table.filter (·.called n) = [] := list_nil_iff.2 fun p hp => hc ⟨p, mem_called.1 hp⟩
      unfold findCli at h
      rw [hn] at h
      simp only [if_true] at h
      split at h
      · simp at h
      · rename_i q hq
        simp only [Option.some.injEq] at h
        subst h
        refine .inr ⟨fun p hp => hc ⟨p, hp⟩, ?_, ?_⟩
        · have : q ∈ table.filter (fun o => n.isPrefixOf o.long) := by rw [hq]; simp
          simpa using this
        · intro p hp hpn
          have : p ∈ table.filter (fun o => n.isPrefixOf o.long) := by simp [hp, hpn]
          rw [hq] at this; simpa using this
      · simp at h
  · rintro (h | ⟨hc, ⟨ho, hn⟩, hu⟩)
    · exact findCli_called ok h
    · have e : table.filter (·.called n) = [] := list_nil_iff.2 fun p hp => hc p (mem_called.1 hp)
      have e2 : table.filter (fun o => n.isPrefixOf o.long) = [o] := by
        refine list_one ((Orderly.nodup ok).filter _) (by simp [ho, hn]) ?_
        intro p hp
        simp only [List.mem_filter, List.isPrefixOf_iff_prefix] at hp
        exact hu p hp.1 hp.2
      unfold findCli; rw [e]; simp only [if_true]; rw [e2]

theorem findCli_dash {g : Bool} {n : Bytes} (hn : n.head? = some minusSign) (h : ∀ p, ¬Called table n p) :
    findCli table g n = some none := by
  have e : table.filter (·.called n) = [] := list_nil_iff.2 fun p hp => h p (mem_called.1 hp)
  have e2 : table.filter (fun o => n.isPrefixOf o.long) = [] := list_nil_iff.2 fun p hp => by
    simp only [List.mem_filter, List.isPrefixOf_iff_prefix] at hp
    exact Orderly.no_prefix ok hn hp.1 hp.2
  unfold findCli; rw [e]; simp only [e2]; cases g <;> rfl

theorem findCli_letter {g : Bool} {c : Byte} {o : CliOption} :
    findCli table g [minusSign, c] = some (some o) ↔ Lettered table c o := by
  constructor
  · intro h
    by_cases hc : ∃ p, Called table [minusSign, c] p
    · obtain ⟨p, hp⟩ := hc
      rw [findCli_called ok hp] at h
      cases h; exact (Orderly.called_dash ok).1 hp
    · rw [findCli_dash ok rfl (fun p hp => hc ⟨p, hp⟩)] at h; simp at h
  · intro h; exact findCli_called ok ((Orderly.called_dash ok).2 h)

theorem findCli_letter_ne_none {g : Bool} {c : Byte} : findCli table g [minusSign, c] ≠ none := by
  by_cases hc : ∃ p, Called table [minusSign, c] p
  · obtain ⟨p, hp⟩ := hc; rw [findCli_called ok hp]; simp
  · rw [findCli_dash ok rfl (fun p hp => hc ⟨p, hp⟩)]; simp

omit ok

theorem span_equals (l : Bytes) : ∃ a b, l.span (· != equalsSign) = (a, b) ∧ l = a ++ b ∧ equalsSign ∉ a ∧
    (b = [] ∨ ∃ v, b = equalsSign :: v) := by
  rw [List.span_eq_takeWhile_dropWhile]
  refine ⟨_, _, rfl, (List.takeWhile_append_dropWhile).symm, ?_, ?_⟩
  · intro h
    have : ∀ m : Bytes, equalsSign ∉ m.takeWhile (· != equalsSign) := by
      intro m
      induction m with
      | nil => simp
      | cons x t ih =>
        rw [List.takeWhile_cons]
        split
        · rename_i hx
          simp only [List.mem_cons, not_or]
          exact ⟨fun e => by simp [← e] at hx, ih⟩
        · simp
    exact this l h
  · cases hd : l.dropWhile (· != equalsSign) with
    | nil => exact .inl rfl
    | cons x t =>
      right
      have := List.head_dropWhile_not (· != equalsSign) (l := l) (by rw [hd]; simp)
      simp [hd] at this
      exact ⟨t, by rw [this]⟩

theorem span_of (a v : Bytes) (h : equalsSign ∉ a) :
    (a ++ equalsSign :: v).span (· != equalsSign) = (a, equalsSign :: v) := by
  rw [List.span_eq_takeWhile_dropWhile]
  have h' : ∀ x ∈ a, (x != equalsSign) = true := by
    intro x hx; simp only [bne_iff_ne, ne_eq]; rintro rfl; exact h hx
  rw [List.takeWhile_append_of_pos h', List.dropWhile_append_of_pos h']
  simp

theorem span_of_not (a : Bytes) (h : equalsSign ∉ a) : a.span (· != equalsSign) = (a, []) := by
  rw [List.span_eq_takeWhile_dropWhile]
  have h' : ∀ x ∈ a, (x != equalsSign) = true := by
    intro x hx; simp only [bne_iff_ne, ne_eq]; rintro rfl; exact h hx
  have e1 := List.takeWhile_append_of_pos (l₂ := []) h'
  have e2 := List.dropWhile_append_of_pos (l₂ := []) h'
  simp only [List.append_nil, List.takeWhile_nil, List.dropWhile_nil] at e1 e2
  rw [e1, e2]

theorem longWord_bare {n : Bytes} (h0 : n ≠ []) (h : equalsSign ∉ n) :
    longWord ([minusSign, minusSign] ++ n) = some (some (n, none)) := by
  cases n with
  | nil => exact absurd rfl h0
  | cons c n =>
    simp only [List.cons_append, List.nil_append, longWord, and_self, if_true]
    rw [span_of_not _ h]

theorem longWord_with {n v : Bytes} (h : equalsSign ∉ n) (hv : v ≠ []) :
    longWord ([minusSign, minusSign] ++ n ++ [equalsSign] ++ v) = some (some (n, some v)) := by
  have hs := span_of n v h
  cases v with
  | nil => exact absurd rfl hv
  | cons x v =>
    cases n with
    | nil =>
      simp only [List.cons_append, List.nil_append, longWord, and_self, if_true] at hs ⊢
      rw [hs]
    | cons c n =>
      simp only [List.cons_append, List.nil_append, List.append_assoc, longWord, and_self, if_true] at hs ⊢
      rw [hs]

theorem longWord_empty {n : Bytes} (h : equalsSign ∉ n) :
    longWord ([minusSign, minusSign] ++ n ++ [equalsSign]) = none := by
  have hs := span_of n [] h
  cases n with
  | nil =>
    simp only [List.cons_append, List.nil_append, longWord, and_self, if_true] at hs ⊢
    rw [hs]
  | cons c n =>
    simp only [List.cons_append, List.nil_append, longWord, and_self, if_true] at hs ⊢
    rw [hs]

/-- The four shapes of a word. -/
theorem longWord_cases (w : Bytes) :
    (∃ n, equalsSign ∉ n ∧ w = [minusSign, minusSign] ++ n ++ [equalsSign] ∧ longWord w = none) ∨
    (∃ n, n ≠ [] ∧ equalsSign ∉ n ∧ w = [minusSign, minusSign] ++ n ∧ longWord w = some (some (n, none))) ∨
    (∃ n v, equalsSign ∉ n ∧ v ≠ [] ∧ w = [minusSign, minusSign] ++ n ++ [equalsSign] ++ v ∧
      longWord w = some (some (n, some v))) ∨
    (longWord w = some none ∧
      (w = [minusSign, minusSign] ∨ (w = [minusSign] ∨ w.head? ≠ some minusSign) ∨
        ∃ c r, c ≠ minusSign ∧ w = minusSign :: c :: r)) := by
  match w with
  | [] => exact .inr (.inr (.inr ⟨rfl, .inr (.inl (.inr (by simp)))⟩))
  | [a] =>
    refine .inr (.inr (.inr ⟨rfl, .inr (.inl ?_)⟩))
    by_cases h : a = minusSign
    · left; rw [h]
    · right; simpa using h
  | [a, b] =>
    refine .inr (.inr (.inr ⟨rfl, ?_⟩))
    by_cases h : a = minusSign
    · by_cases h2 : b = minusSign
      · left; rw [h, h2]
      · exact .inr (.inr ⟨b, [], h2, by rw [h]⟩)
    · right; left; right; simpa using h
  | a :: b :: c :: rest =>
    by_cases h : a = minusSign ∧ b = minusSign
    · obtain ⟨rfl, rfl⟩ := h
      obtain ⟨n, t, hs, he, hn, ht⟩ := span_equals (c :: rest)
      rcases ht with rfl | ⟨v, rfl⟩
      · right; left
        rw [List.append_nil] at he
        subst he
        exact ⟨_, by simp, hn, rfl, longWord_bare (by simp) hn⟩
      · rw [he]
        by_cases hv : v = []
        · subst hv
          exact .inl ⟨n, hn, by simp, by simpa using longWord_empty hn⟩
        · exact .inr (.inr (.inl ⟨n, v, hn, hv, by simp, by simpa using longWord_with hn hv⟩))
    · right; right; right
      refine ⟨by simp only [longWord, if_neg h], ?_⟩
      by_cases ha : a = minusSign
      · have hb : b ≠ minusSign := fun hb => h ⟨ha, hb⟩
        exact .inr (.inr ⟨b, c :: rest, hb, by rw [ha]⟩)
      · right; left; right; simpa using ha

include ok

/-- What a group leaves for its last letter. -/
def leftover (r : Bytes) : Option Bytes := if r = [] then none else some r

theorem shortGroup_eq {cs : Bytes} {os : List CliOption} {l : Byte} {r : Bytes} (h : Switches table cs os)
    (hl : r = [] ∨ ∃ o, Lettered table l o ∧ o.valued = true) {c : Byte} {more : Bytes}
    (e : c :: more = cs ++ l :: r) :
    shortGroup table c more = some (cs.map fun c => [minusSign, c], [minusSign, l], leftover r) := by
  unfold Switches at h
  induction h generalizing c more with
  | nil =>
    obtain ⟨rfl, rfl⟩ : c = l ∧ more = r := by simpa using e
    cases more with
    | nil => rfl
    | cons d t =>
      rcases hl with hl | ⟨o, ho, hv⟩
      · simp at hl
      · simp [shortGroup, (findCli_letter ok).2 ho, hv, leftover]
  | @cons a o cs os hao h ih =>
    obtain ⟨rfl, e'⟩ : c = a ∧ more = cs ++ l :: r := by simpa using e
    clear e
    cases hm : cs ++ l :: r with
    | nil => simp at hm
    | cons d t =>
      rw [hm] at e'; subst e'
      rw [shortGroup, (findCli_letter ok).2 hao.1, ih hm.symm]
      simp [hao.2]

theorem shortGroup_spec (c : Byte) (more : Bytes) : ∃ cs os l r, c :: more = cs ++ l :: r ∧ Switches table cs os ∧
    shortGroup table c more = some (cs.map fun c => [minusSign, c], [minusSign, l], leftover r) := by
  induction more generalizing c with
  | nil => exact ⟨[], [], c, [], rfl, .nil, rfl⟩
  | cons d t ih =>
    obtain ⟨found, hf⟩ := Option.ne_none_iff_exists'.1 (findCli_letter_ne_none ok (g := false) (c := c))
    cases found with
    | none => exact ⟨[], [], c, d :: t, rfl, .nil, by simp [shortGroup, hf, leftover]⟩
    | some o =>
      cases hv : o.valued with
      | true => exact ⟨[], [], c, d :: t, rfl, .nil, by simp [shortGroup, hf, hv, leftover]⟩
      | false =>
        obtain ⟨cs, os, l, r, e, hs, hg⟩ := ih d
        exact ⟨c :: cs, o :: os, l, r, by rw [e]; rfl, .cons ⟨(findCli_letter ok).1 hf, hv⟩ hs,
          by rw [shortGroup, hf, hg]; simp [hv]⟩

theorem refers_letter {c : Byte} {o : CliOption} : RefersTo table [minusSign, c] o ↔ Lettered table c o := by
  rw [← findCli_refers ok, findCli_letter ok]

theorem not_called_long {n : Bytes} (h : 3 ≤ n.length) (hn : n.head? = some minusSign) (p : CliOption) :
    ¬Called table n p := by
  rintro ⟨hp, rfl | ⟨c, _, rfl⟩⟩
  · exact (ok.plain p hp).2 hn
  · simp at h

/-- Whether the next word is taken. -/
theorem next_taken (v : Bytes) : (MayBeValue table v ∧
      (looksLikeOption table v = some false ∨ looksLikeOption table v = some true ∧ findCli table true v = some none)) ∨
    ¬MayBeValue table v ∧
      (looksLikeOption table v = none ∨ looksLikeOption table v = some true ∧ findCli table true v ≠ some none) := by
  have hlw : ∀ x, longWord v = some x → ∀ n, equalsSign ∉ n → v ≠ [minusSign, minusSign] ++ n ++ [equalsSign] := by
    intro x hx n hn e
    rw [e, longWord_empty hn] at hx; simp at hx
  rcases longWord_cases v with ⟨n, hn, e, hw⟩ | ⟨n, h0, hn, e, hw⟩ | ⟨n, x, hn, hx, e, hw⟩ | ⟨hw, e⟩
  · right
    exact ⟨fun h => h.2 n hn e, .inl (by simp [looksLikeOption, hw])⟩
  · left
    have hlen : 3 ≤ v.length := by
      rw [e]; cases n with
      | nil => exact absurd rfl h0
      | cons a t => simp
    have hh : v.head? = some minusSign := by rw [e]; rfl
    refine ⟨⟨?_, hlw _ hw⟩, .inr ⟨by simp [looksLikeOption, hw], findCli_dash ok hh (not_called_long ok hlen hh)⟩⟩
    rintro c o - rfl
    simp at hlen
  · left
    have hlen : 3 ≤ v.length := by rw [e]; simp; omega
    have hh : v.head? = some minusSign := by rw [e]; rfl
    refine ⟨⟨?_, hlw _ hw⟩, .inr ⟨by simp [looksLikeOption, hw], findCli_dash ok hh (not_called_long ok hlen hh)⟩⟩
    rintro c o - rfl
    simp at hlen
  · rcases e with e | e | ⟨c, r, hc, e⟩
    · left
      refine ⟨⟨?_, hlw _ hw⟩, .inl ?_⟩
      · rintro c o hco h
        rw [e] at h
        simp only [List.cons.injEq, and_true, true_and] at h
        exact Orderly.letter_ne ok hco h.symm
      · subst e; unfold looksLikeOption; rw [hw]; simp
    · left
      refine ⟨⟨?_, hlw _ hw⟩, .inl ?_⟩
      · rintro c o hco rfl
        rcases e with e | e <;> simp at e
      · rcases e with e | e
        · subst e; rfl
        · match v, e, hw with
          | [], _, _ => rfl
          | [a], _, _ => rfl
          | a :: b :: t, e, hw =>
            unfold looksLikeOption
            rw [hw]
            have e : a ≠ minusSign := by simpa using e
            simp [e]
    · have hl : looksLikeOption table v = some true := by
        obtain ⟨_, _, _, _, _, _, hg⟩ := shortGroup_spec ok c r
        subst e
        unfold looksLikeOption
        rw [hw]
        simp [hc, hg]
      by_cases hp : ∃ p, Called table v p
      · right
        obtain ⟨p, hp⟩ := hp
        refine ⟨?_, .inr ⟨hl, by rw [findCli_called ok hp]; simp⟩⟩
        intro h
        rcases hp with ⟨hm, h' | ⟨d, hd, h'⟩⟩
        · exact (ok.plain p hm).2 (by rw [h', e]; rfl)
        · exact h.1 d p ⟨hm, hd⟩ h'
      · left
        refine ⟨⟨?_, hlw _ hw⟩, .inr ⟨hl, findCli_dash ok (by rw [e]; rfl) fun p h => hp ⟨p, h⟩⟩⟩
        rintro d o hdo rfl
        exact hp ⟨o, (Orderly.called_dash ok).2 hdo⟩

theorem finishCli_iff {n : Bytes} {adj : Option Bytes} {rest : List Bytes} {u : CliUse} {b : Bool} :
    finishCli table n adj rest = some (u, b) ↔ ∃ o, RefersTo table n o ∧
      (o.valued = false ∧ adj = none ∧ u = on o ∧ b = false ∨
       o.valued = true ∧ (∃ v, adj = some v ∧ u = set o v ∧ b = false) ∨
       o.valued = true ∧ adj = none ∧ ∃ v ws, rest = v :: ws ∧ MayBeValue table v ∧ u = set o v ∧ b = true) := by
  simp only [← findCli_refers ok, on, Spec.set]
  unfold finishCli
  rcases findCli table true n with _ | _ | o
  · simp
  · simp
  · simp only [Option.some.injEq, exists_eq_left']
    rcases hv : o.valued with _ | _
    · rcases adj with _ | v
      · simp [eq_comm]
      · simp
    · rcases adj with _ | v
      · rcases rest with _ | ⟨v, ws⟩
        · simp
        · rcases next_taken ok v with ⟨hm, h | ⟨h, h'⟩⟩ | ⟨hm, h | ⟨h, h'⟩⟩
          · simp [h, hm, eq_comm]
          · simp [h, h', hm, eq_comm]
          · simp [h, hm]
          · simp only [h]
            rcases hf : findCli table true v with _ | _ | p
            · simp [hm]
            · exact absurd hf h'
            · simp [hm]
      · simp [eq_comm]

theorem switches_finish {cs : Bytes} {os : List CliOption} (h : Switches table cs os) :
    (cs.map fun c => [minusSign, c]).mapM (fun n => finishCli table n none []) = some (os.map fun o => (on o, false)) := by
  unfold Switches at h
  induction h with
  | nil => rfl
  | @cons a o cs os hao h ih =>
    have e : finishCli table [minusSign, a] none [] = some (on o, false) :=
      (finishCli_iff ok).2 ⟨o, (refers_letter ok).2 hao.1, .inl ⟨hao.2, rfl, rfl, rfl⟩⟩
    simp [List.mapM_cons, e, ih]

omit ok in
theorem switches_append {cs : Bytes} {os : List CliOption} (h : Switches table cs os) {l : Byte} {o : CliOption}
    (hl : Lettered table l o) (hv : o.valued = false) : Switches table (cs ++ [l]) (os ++ [o]) := by
  unfold Switches at *
  exact List.rel_append h (.cons ⟨hl, hv⟩ .nil)

omit ok in
/-- One step of the reading, for a word with letters. -/
theorem readWords_short {c : Byte} (hc : c ≠ minusSign) (more : Bytes) (rest : List Bytes) :
    readWords table ((minusSign :: c :: more) :: rest) =
      match shortGroup table c more with
      | none => none
      | some (before, name, adjacent) =>
        match before.mapM (fun n => finishCli table n none []) with
        | none => none
        | some us =>
          match finishCli table name adjacent rest with
          | none => none
          | some (u, false) => (readWords table rest).map (us.map Prod.fst ++ [u] ++ ·)
          | some (u, true) =>
            match rest with
            | [] => none
            | _ :: rest' => (readWords table rest').map (us.map Prod.fst ++ [u] ++ ·) := by
  have hw : longWord (minusSign :: c :: more) = some none := by
    cases more with
    | nil => rfl
    | cons d t => simp [longWord, hc]
  rw [readWords, hw]
  simp only [hc, ne_eq, not_false_eq_true, and_self, if_true]
  rfl

omit ok in
theorem readWords_bad {word : Bytes} {rest : List Bytes} (h : longWord word = none) :
    readWords table (word :: rest) = none := by
  unfold readWords; rw [h]

omit ok in
theorem readWords_long {word n : Bytes} {adj : Option Bytes} {rest : List Bytes}
    (h : longWord word = some (some (n, adj))) :
    readWords table (word :: rest) =
      if n = [] then readWords table rest
      else match finishCli table n adj rest with
        | none => none
        | some (u, false) => (readWords table rest).map (u :: ·)
        | some (u, true) =>
          match rest with
          | [] => none
          | _ :: rest' => (readWords table rest').map (u :: ·) := by
  conv_lhs => unfold readWords
  rw [h]
  rfl

omit ok in
theorem switches_concat {cs : Bytes} {l : Byte} {os : List CliOption} (h : Switches table (cs ++ [l]) os) :
    ∃ os' o, os = os' ++ [o] ∧ Switches table cs os' ∧ Lettered table l o ∧ o.valued = false := by
  unfold Switches at *
  induction cs generalizing os with
  | nil =>
    obtain ⟨o, _, ho, hnil, rfl⟩ := List.forall₂_cons_left_iff.1 h
    rw [List.forall₂_nil_left_iff] at hnil
    subst hnil
    exact ⟨[], o, rfl, .nil, ho.1, ho.2⟩
  | cons c cs ih =>
    obtain ⟨p, _, hp, ht, rfl⟩ := List.forall₂_cons_left_iff.1 h
    obtain ⟨os', o, rfl, h1, h2⟩ := ih ht
    exact ⟨p :: os', o, rfl, .cons hp h1, h2⟩

theorem spells_of_read (words : List Bytes) : ∀ uses, readWords table words = some uses → Spells table uses words := by
  induction hlen : words.length using Nat.strong_induction_on generalizing words with
  | _ len ih =>
  subst hlen
  have ih : ∀ ws : List Bytes, ws.length < words.length → ∀ us, readWords table ws = some us → Spells table us ws :=
    fun ws h => ih ws.length h ws rfl
  intro uses h
  match words, ih, h with
  | [], _, h => rw [readWords] at h; cases h; exact .nothing
  | word :: rest, ih, h =>
    have ih0 := ih rest (by simp)
    rcases longWord_cases word with ⟨n, hn, e, hw⟩ | ⟨n, h0, hn, e, hw⟩ | ⟨n, x, hn, hx, e, hw⟩ | ⟨hw, e⟩
    · rw [readWords_bad hw] at h; simp at h
    · rw [readWords_long hw] at h
      simp only [if_neg h0] at h
      rcases hf : finishCli table n none rest with _ | ⟨u, b⟩
      · rw [hf] at h; simp at h
      · rw [hf] at h
        obtain ⟨o, hr, ⟨hv, -, rfl, rfl⟩ | ⟨_, v, hv, -⟩ | ⟨hv, -, v, ws, hrest, hm, rfl, rfl⟩⟩ := (finishCli_iff ok).1 hf
        · obtain ⟨us, hus, rfl⟩ := Option.map_eq_some_iff.1 h
          rw [e]; exact .long h0 hn hr hv (ih0 us hus)
        · simp at hv
        · subst hrest
          obtain ⟨us, hus, rfl⟩ := Option.map_eq_some_iff.1 h
          rw [e]; exact .longThen h0 hn hr hv hm (ih ws (by simp) us hus)
    · rw [readWords_long hw] at h
      by_cases h0 : n = []
      · rw [if_pos h0] at h
        subst h0
        rw [e]; exact .nameless hx (ih0 uses h)
      · rw [if_neg h0] at h
        rcases hf : finishCli table n (some x) rest with _ | ⟨u, b⟩
        · rw [hf] at h; simp at h
        · rw [hf] at h
          obtain ⟨o, hr, ⟨_, hv, -⟩ | ⟨hv, v, hxv, rfl, rfl⟩ | ⟨_, hv, -⟩⟩ := (finishCli_iff ok).1 hf
          · simp at hv
          · cases hxv
            obtain ⟨us, hus, rfl⟩ := Option.map_eq_some_iff.1 h
            rw [e]; exact .longEquals h0 hn hr hv hx (ih0 us hus)
          · simp at hv
    · rcases e with e | e | ⟨c, r, hc, e⟩
      · subst e
        rw [readWords, hw] at h
        simp at h
        subst h
        exact .stop
      · refine .stray e (ih0 uses ?_)
        match word, e, hw, h with
        | [], _, hw, h => simpa [readWords, hw] using h
        | [a], _, hw, h => simpa [readWords, hw] using h
        | a :: b :: t, e, hw, h =>
          have ha : a ≠ minusSign := e.elim (fun e => by simp at e) (fun e => by simpa using e)
          rw [readWords, hw] at h
          simpa [ha] using h
      · subst e
        rw [readWords_short hc] at h
        obtain ⟨cs, os, l, r', es, hs, hg⟩ := shortGroup_spec ok c r
        rw [hg] at h
        simp only [switches_finish ok hs] at h
        have hword : minusSign :: c :: r = minusSign :: cs ++ l :: r' := by rw [es]; rfl
        rcases hf : finishCli table [minusSign, l] (leftover r') rest with _ | ⟨u, b⟩
        · rw [hf] at h; simp at h
        · rw [hf] at h
          have emap : (os.map fun o => (on o, false)).map Prod.fst = os.map on := by simp
          rw [emap] at h
          obtain ⟨o, hr, ⟨hv, hl, rfl, rfl⟩ | ⟨hv, v, hxv, rfl, rfl⟩ | ⟨hv, hl, v, ws, hrest, hm, rfl, rfl⟩⟩ := (finishCli_iff ok).1 hf
          · obtain ⟨us, hus, rfl⟩ := Option.map_eq_some_iff.1 h
            have hr' : r' = [] := by by_contra h'; simp [leftover, h'] at hl
            subst hr'
            have := Spells.short (table := table) (by simp) (switches_append hs ((refers_letter ok).1 hr) hv) (ih0 us hus)
            rw [hword]
            simpa using this
          · obtain ⟨us, hus, rfl⟩ := Option.map_eq_some_iff.1 h
            have hr' : r' ≠ [] := by rintro rfl; simp [leftover] at hxv
            have : v = r' := by simpa [leftover, hr', eq_comm] using hxv
            subst this
            rw [hword]
            simpa using Spells.shortWith (table := table) hs ((refers_letter ok).1 hr) hv hr' (ih0 us hus)
          · have hr' : r' = [] := by by_contra h'; simp [leftover, h'] at hl
            subst hr' hrest
            obtain ⟨us, hus, rfl⟩ := Option.map_eq_some_iff.1 h
            rw [hword]
            simpa using Spells.shortThen (table := table) hs ((refers_letter ok).1 hr) hv hm (ih ws (by simp) us hus)

theorem read_of_spells {uses : List CliUse} {words : List Bytes} (h : Spells table uses words) :
    readWords table words = some uses := by
  induction h with
  | nothing => rfl
  | @stray us ws w hw h ih =>
    match w, hw with
    | [], _ => simpa [readWords, longWord] using ih
    | [a], _ => simpa [readWords, longWord] using ih
    | a :: b :: t, e =>
      have ha : a ≠ minusSign := e.elim (fun e => by simp at e) (fun e => by simpa using e)
      have hw : longWord (a :: b :: t) = some none := by
        cases t with
        | nil => rfl
        | cons d t => simp [longWord, ha]
      rw [readWords, hw]
      simpa [ha] using ih
  | stop => simp [readWords, longWord]
  | @nameless us ws v hv h ih =>
    have := longWord_with (n := []) (v := v) (by simp) hv
    simp only [List.append_nil, List.cons_append, List.nil_append] at this ⊢
    rw [readWords, this]
    simpa using ih
  | @long us ws n o h0 hn hr hv h ih =>
    have hf := (finishCli_iff ok (adj := none) (rest := ws)).2 ⟨o, hr, .inl ⟨hv, rfl, rfl, rfl⟩⟩
    rw [readWords_long (longWord_bare h0 hn)]
    simp [h0, hf, ih]
  | @longEquals us ws n o v h0 hn hr hv hx h ih =>
    have hf := (finishCli_iff ok (adj := some v) (rest := ws)).2 ⟨o, hr, .inr (.inl ⟨hv, v, rfl, rfl, rfl⟩)⟩
    rw [readWords_long (longWord_with hn hx)]
    simp [h0, hf, ih]
  | @longThen us ws n o v h0 hn hr hv hm h ih =>
    have hf := (finishCli_iff ok (adj := none) (rest := v :: ws)).2 ⟨o, hr, .inr (.inr ⟨hv, rfl, v, ws, rfl, hm, rfl, rfl⟩)⟩
    rw [readWords_long (longWord_bare h0 hn)]
    simp [h0, hf, ih]
  | @short us ws cs os h0 hs h ih =>
    obtain ⟨cs', l, rfl⟩ := List.eq_nil_or_concat' cs |>.resolve_left h0
    obtain ⟨os', o, rfl, hs', hl, hv⟩ := switches_concat hs
    cases hcs : cs' ++ [l] with
    | nil => simp at hcs
    | cons c more =>
      have hc : c ≠ minusSign := by
        cases cs' with
        | nil =>
          obtain ⟨rfl, rfl⟩ : l = c ∧ [] = more := by simpa using hcs
          exact Orderly.letter_ne ok hl
        | cons d t =>
          obtain ⟨rfl, -⟩ : d = c ∧ _ := by simpa using hcs
          unfold Switches at hs'
          obtain ⟨o, _, ho, -, -⟩ := List.forall₂_cons_left_iff.1 hs'
          exact Orderly.letter_ne ok ho.1
      have hg := shortGroup_eq ok hs' (l := l) (r := []) (.inl rfl) hcs.symm
      have hf := (finishCli_iff ok (n := [minusSign, l]) (adj := leftover []) (rest := ws)).2
        ⟨o, (refers_letter ok).2 hl, .inl ⟨hv, rfl, rfl, rfl⟩⟩
      rw [readWords_short hc, hg]
      simp only [switches_finish ok hs', hf, ih]
      simp
  | @shortWith us ws cs os c o v hs hl hv hx h ih =>
    cases hcs : cs ++ c :: v with
    | nil => simp at hcs
    | cons d more =>
      have hc : d ≠ minusSign := by
        cases cs with
        | nil =>
          obtain ⟨rfl, -⟩ : c = d ∧ _ := by simpa using hcs
          exact Orderly.letter_ne ok hl
        | cons e t =>
          obtain ⟨rfl, -⟩ : e = d ∧ _ := by simpa using hcs
          unfold Switches at hs
          obtain ⟨o, _, ho, -, -⟩ := List.forall₂_cons_left_iff.1 hs
          exact Orderly.letter_ne ok ho.1
      have hg := shortGroup_eq ok hs (.inr ⟨o, hl, hv⟩) hcs.symm
      have hf := (finishCli_iff ok (n := [minusSign, c]) (adj := leftover v) (rest := ws)).2
        ⟨o, (refers_letter ok).2 hl, .inr (.inl ⟨hv, v, by simp [leftover, hx], rfl, rfl⟩)⟩
      rw [List.cons_append, hcs, readWords_short hc, hg]
      simp only [switches_finish ok hs, hf, ih]
      simp
  | @shortThen us ws cs os c o v hs hl hv hm h ih =>
    cases hcs : cs ++ [c] with
    | nil => simp at hcs
    | cons d more =>
      have hc : d ≠ minusSign := by
        cases cs with
        | nil =>
          obtain ⟨rfl, -⟩ : c = d ∧ _ := by simpa using hcs
          exact Orderly.letter_ne ok hl
        | cons e t =>
          obtain ⟨rfl, -⟩ : e = d ∧ _ := by simpa using hcs
          unfold Switches at hs
          obtain ⟨o, _, ho, -, -⟩ := List.forall₂_cons_left_iff.1 hs
          exact Orderly.letter_ne ok ho.1
      have hg := shortGroup_eq ok hs (l := c) (r := []) (.inl rfl) hcs.symm
      have hf := (finishCli_iff ok (n := [minusSign, c]) (adj := leftover []) (rest := v :: ws)).2
        ⟨o, (refers_letter ok).2 hl, .inr (.inr ⟨hv, rfl, v, ws, rfl, hm, rfl, rfl⟩)⟩
      rw [List.cons_append, hcs, readWords_short hc, hg]
      simp only [switches_finish ok hs, hf, ih]
      simp

end CDT
