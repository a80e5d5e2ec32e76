/-
The canonical site order.
-/
import Verif.Model.Moves
import Verif.Lemmas.Search

namespace CDT
open Moves

variable {V G : Type} [LinearOrder V]

instance : Std.Total (fun s t : Finset V => siteLe s t = true) := ⟨siteLe_total⟩
instance : IsTrans (Finset V) (fun s t : Finset V => siteLe s t = true) := ⟨fun _ _ _ => siteLe_trans⟩

theorem pairwise_canonicalize (l : List (Finset V)) :
    (canonicalize l).Pairwise (fun s t => siteLe s t = true) := List.pairwise_insertionSort _ _

theorem canonicalize_perm (l : List (Finset V)) : (canonicalize l).Perm l := List.perm_insertionSort _ _

theorem sorted_unique {l l' : List (Finset V)} (h : l.Perm l')
    (hs : l.Pairwise (fun s t => siteLe s t = true)) (hs' : l'.Pairwise (fun s t => siteLe s t = true)) :
    l = l' :=
  List.Perm.eq_of_pairwise (fun _ _ _ _ h h' => siteLe_antisymm h h') hs hs' h

/-- Sorting forgets the storage order. -/
theorem canonicalize_congr {l l' : List (Finset V)} (h : l.Perm l') : canonicalize l = canonicalize l' :=
  sorted_unique ((canonicalize_perm l).trans (h.trans (canonicalize_perm l').symm))
    (pairwise_canonicalize l) (pairwise_canonicalize l')

/-- `nth_element` finds the entry that sorting would put at that index. -/
theorem nth_eq_sorted {l r : List (Finset V)} {i : ℕ} (h : NthContract siteLe l i r) :
    r[i]? = (canonicalize l)[i]? := by
  obtain ⟨hp, hx⟩ := h
  cases hri : r[i]? with
  | none =>
    rw [List.getElem?_eq_none_iff] at hri
    symm
    rw [List.getElem?_eq_none_iff, (canonicalize_perm l).length_eq, ← hp.length_eq]
    exact hri
  | some x =>
    obtain ⟨hlo, hhi⟩ := hx x hri
    obtain ⟨hlt, hget⟩ := List.getElem?_eq_some_iff.1 hri
    have hsplit : r = r.take i ++ x :: r.drop (i + 1) := by
      rw [← hget, ← List.drop_eq_getElem_cons hlt, List.take_append_drop]
    have key : canonicalize l = canonicalize (r.take i) ++ x :: canonicalize (r.drop (i + 1)) := by
      apply sorted_unique
      · refine (canonicalize_perm l).trans (hp.symm.trans ?_)
        conv_lhs => rw [hsplit]
        exact ((canonicalize_perm _).symm).append ((canonicalize_perm _).symm.cons _)
      · exact pairwise_canonicalize l
      · have hlo' : ∀ y ∈ canonicalize (r.take i), siteLe y x = true := by
          intro y hy
          rw [mem_canonicalize] at hy
          obtain ⟨j, hj⟩ := List.mem_iff_getElem?.1 hy
          rw [List.getElem?_take] at hj
          by_cases hji : j < i
          · rw [if_pos hji] at hj; exact hlo j y hji hj
          · rw [if_neg hji] at hj; simp at hj
        have hhi' : ∀ y ∈ canonicalize (r.drop (i + 1)), siteLe x y = true := by
          intro y hy
          rw [mem_canonicalize] at hy
          obtain ⟨j, hj⟩ := List.mem_iff_getElem?.1 hy
          rw [List.getElem?_drop] at hj
          exact hhi _ y (by omega) hj
        rw [List.pairwise_append]
        refine ⟨pairwise_canonicalize _, ?_, ?_⟩
        · rw [List.pairwise_cons]
          exact ⟨hhi', pairwise_canonicalize _⟩
        · intro a ha b hb
          rcases List.mem_cons.1 hb with rfl | hb
          · exact hlo' a ha
          · exact siteLe_trans (hlo' a ha) (hhi' b hb)
    rw [key, List.getElem?_append_right]
    · have : (canonicalize (r.take i)).length = i := by
        rw [(canonicalize_perm _).length_eq, List.length_take]; omega
      rw [this]; simp
    · rw [(canonicalize_perm _).length_eq, List.length_take]; omega

/-- A computable enumeration of a finite set of sites (used by concrete examples). -/
def canonSites (S : Finset (Finset V)) : List (Finset V) :=
  Quot.liftOn S.val canonicalize (fun _ _ h => canonicalize_congr h)

theorem canonSites_perm (S : Finset (Finset V)) : (canonSites S : Multiset (Finset V)) = S.val := by
  unfold canonSites
  rcases S with ⟨v, hv⟩
  induction v using Quot.inductionOn with
  | h l => exact Quot.sound (canonicalize_perm l)

theorem mem_canonSites {S : Finset (Finset V)} {s : Finset V} : s ∈ canonSites S ↔ s ∈ S := by
  rw [← Multiset.mem_coe, canonSites_perm]; rfl

theorem nodup_canonSites (S : Finset (Finset V)) : (canonSites S).Nodup := by
  rw [← Multiset.coe_nodup, canonSites_perm]; exact S.nodup

end CDT
