import Verif.Spec.Listing
/-
Indexes by time slice.
-/
namespace CDT.Spec

/-- `index` holds, under each time, exactly the listed things that lie on that slice, in the order of the list; and it is
ordered by time. -/
def IndexesBySlice {α : Type} (index : List (ℤ × α)) (listed : List α) (onSlice : α → ℤ → Prop)
    [∀ a t, Decidable (onSlice a t)] : Prop :=
  index.Pairwise (fun a b => a.1 ≤ b.1) ∧
  ∀ t, (index.filter fun e => e.1 = t).map Prod.snd = listed.filter fun a => onSlice a t

end CDT.Spec
