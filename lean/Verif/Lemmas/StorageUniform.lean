import Verif.Lemmas.Storage
/-
A file operation does not depend on what the process did before: only on the current files and the
fates still to come.
-/
namespace CDT

/-- `p` started after `c` operations, with `extra` states already visible, does what it does when
started afresh. -/
def Uniform {α : Type} (p : Io α) : Prop :=
  ∀ (fs : Files) (vis extra : List Files) (fates : ℕ → Fate) (c k : ℕ),
    ∃ fs' vis' k', p ⟨fs, vis, fun i => fates (c + i), k⟩ =
        ((p ⟨fs, vis, fun i => fates (c + i), k⟩).1, ⟨fs', vis', fun i => fates (c + i), k'⟩) ∧
      p ⟨fs, vis ++ extra, fates, c + k⟩ =
        ((p ⟨fs, vis, fun i => fates (c + i), k⟩).1, ⟨fs', vis' ++ extra, fates, c + k'⟩)

theorem Uniform.pure {α : Type} (a : α) : Uniform (Pure.pure a : Io α) :=
  fun fs vis _ _ _ k => ⟨fs, vis, k, rfl, rfl⟩

theorem Uniform.lift {α : Type} (a : Except Exc α) : Uniform (Io.lift a) :=
  fun fs vis _ _ _ k => ⟨fs, vis, k, rfl, rfl⟩

theorem Uniform.throw {α : Type} (e : Exc) : Uniform (Io.throw e : Io α) :=
  fun fs vis _ _ _ k => ⟨fs, vis, k, rfl, rfl⟩

theorem Uniform.nextFate : Uniform Io.nextFate :=
  fun fs vis _ _ c k => ⟨fs, vis, k + 1, rfl, by simp only [Io.nextFate, Nat.add_assoc]⟩

theorem Uniform.put (p : Path) (c : Option Bytes) : Uniform (Io.put p c) :=
  fun fs vis _ _ _ k => ⟨fs.put p c, fs.put p c :: vis, k, rfl, rfl⟩

theorem Uniform.look (p : Path) : Uniform (Io.look p) :=
  fun fs vis _ _ _ k => ⟨fs, vis, k, rfl, rfl⟩

theorem Uniform.bind {α β : Type} {p : Io α} {f : α → Io β} (hp : Uniform p) (hf : ∀ a, Uniform (f a)) :
    Uniform (p >>= f) := by
  intro fs vis extra fates c k
  obtain ⟨fs1, vis1, k1, h1, h1'⟩ := hp fs vis extra fates c k
  rcases hr : (p ⟨fs, vis, fun i => fates (c + i), k⟩).1 with e | a
  · rw [hr] at h1 h1'
    refine ⟨fs1, vis1, k1, ?_, ?_⟩ <;> simp only [Io.bind_run, h1, h1']
  · rw [hr] at h1 h1'
    obtain ⟨fs2, vis2, k2, h2, h2'⟩ := hf a fs1 vis1 extra fates c k1
    refine ⟨fs2, vis2, k2, ?_, ?_⟩
    · simp only [Io.bind_run, h1]
      exact h2
    · simp only [Io.bind_run, h1, h1']
      exact h2'

theorem Uniform.tryRethrow {α : Type} {p : Io α} {q : Io Unit} (hp : Uniform p) (hq : Uniform q) :
    Uniform (Io.tryRethrow p q) := by
  intro fs vis extra fates c k
  obtain ⟨fs1, vis1, k1, h1, h1'⟩ := hp fs vis extra fates c k
  rcases hr : (p ⟨fs, vis, fun i => fates (c + i), k⟩).1 with e | a
  · rw [hr] at h1 h1'
    obtain ⟨fs2, vis2, k2, h2, h2'⟩ := hq fs1 vis1 extra fates c k1
    refine ⟨fs2, vis2, k2, ?_, ?_⟩
    · simp only [Io.tryRethrow, h1]
      rw [h2]
    · simp only [Io.tryRethrow, h1, h1', h2']
  · rw [hr] at h1 h1'
    refine ⟨fs1, vis1, k1, ?_, ?_⟩
    · simp only [Io.tryRethrow, h1]
    · simp only [Io.tryRethrow, h1, h1']

theorem Uniform.ite {α : Type} {b : Prop} [Decidable b] {p q : Io α} (hp : Uniform p) (hq : Uniform q) :
    Uniform (if b then p else q) := by
  split <;> assumption

theorem Uniform.remove (p : Path) : Uniform (Io.remove p) :=
  .bind .nextFate fun _ => .ite (.put _ _) (.pure _)

theorem Uniform.rename (p q : Path) : Uniform (Io.rename p q) := by
  refine .bind .nextFate fun fate => .bind (.look p) fun c => ?_
  cases c with
  | none => exact .throw _
  | some c =>
    refine .ite ?_ (.throw _)
    intro fs vis extra fates c' k
    exact ⟨_, _, k, rfl, rfl⟩

theorem Uniform.putAll (p : Path) : ∀ cs : List Bytes, Uniform (Io.putAll p cs)
  | [] => .pure _
  | _ :: cs => .bind (.put _ _) fun _ => Uniform.putAll p cs

theorem Uniform.writeWhole (p : Path) (c : Bytes) : Uniform (Io.writeWhole p c) := by
  refine .bind .nextFate fun fate => .ite (.bind (.put _ _) fun _ => .bind (.putAll _ _) fun _ => ?_) (.throw _)
  cases fate.interrupted with
  | none => exact .put _ _
  | some e => exact .bind (.put _ _) fun _ => .throw _

theorem Uniform.readWhole (p : Path) : Uniform (Io.readWhole p) := by
  refine .bind .nextFate fun fate => .bind (.look p) fun c => ?_
  cases c with
  | none => exact .throw _
  | some c => exact .ite (.pure _) (.throw _)

variable {T : Type}

theorem Uniform.writePayload (codec : Codec T) (ft : FloatText) (build : BuildInfo) (dest : Path) (t : T)
    (m : Option Metadata) : Uniform (CDT.writePayload codec ft build dest t m) := by
  refine .bind (.lift _) fun resolved => .bind (.remove _) fun _ => .bind (.remove _) fun _ =>
    .tryRethrow (.bind (.writeWhole _ _) fun _ => .bind (.readWhole _) fun _ => .bind (.lift _) fun _ => ?_)
      (.bind (.remove _) fun _ => .remove _)
  cases resolved with
  | none => exact .bind (.rename _ _) fun _ => .remove _
  | some m =>
    refine .bind ?_ fun _ => .bind (.rename _ _) fun _ => .pure _
    exact .bind (.readWhole _) fun _ => .bind (.writeWhole _ _) fun _ => .bind (.readWhole _) fun _ =>
      .bind (.lift _) fun _ => .bind (.lift _) fun _ => .bind (.lift _) fun _ => .rename _ _

open Spec in
/-- A write at any time of the life of a process. -/
theorem writePayload_anytime (codec : Codec T) (ft : FloatText) (build : BuildInfo) (dest : Path) (t : T)
    (m : Option Metadata) (d : Disk) :
    ∃ fs' vis k, CDT.writePayload codec ft build dest t m (startingWith d.fs fun i => d.fates (d.clock + i)) =
        ((CDT.writePayload codec ft build dest t m d).1, ⟨fs', vis ++ [d.fs], fun i => d.fates (d.clock + i), k⟩) ∧
      CDT.writePayload codec ft build dest t m d =
        ((CDT.writePayload codec ft build dest t m d).1, ⟨fs', vis ++ d.visible, d.fates, d.clock + k⟩) := by
  have hu := Uniform.writePayload codec ft build dest t m
  obtain ⟨fs1, vis1, k1, h1, h1'⟩ := hu d.fs [] d.visible d.fates d.clock 0
  obtain ⟨fs2, vis2, k2, h2, h2'⟩ := hu d.fs [] [d.fs] (fun i => d.fates (d.clock + i)) 0 0
  simp only [Nat.zero_add, List.nil_append, Nat.add_zero] at h1 h1' h2 h2'
  rw [h2, Prod.mk.injEq, Disk.mk.injEq] at h1
  obtain ⟨-, rfl, rfl, -, rfl⟩ := h1
  have e : (CDT.writePayload codec ft build dest t m d).1 = _ := congrArg Prod.fst h1'
  rw [e]
  exact ⟨fs2, vis2, k2, h2', h1'⟩

end CDT
