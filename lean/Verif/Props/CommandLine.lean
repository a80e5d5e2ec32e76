import Verif.Lemmas.CommandStore
import Verif.Spec.CommandOptions
/-
C104: what a command line does.  The three programs read their words by the grammar `Spec.Spells` and
give their settings the values `Spec.SettingsOf` says; a command line outside of it ends the program with
status 1 before any file is touched.
-/
namespace CDT.Props
open CDT.Spec

/-- The option tables of the three programs are orderly. -/
theorem C104_tables : Orderly cdtTable ∧ Orderly initializeTable ∧ Orderly viewerTable := by
  refine ⟨⟨?_, ?_, ?_, ?_⟩, ⟨?_, ?_, ?_, ?_⟩, ⟨?_, ?_, ?_, ?_⟩⟩ <;> decide +kernel

/-- The options read from a command line are those it spells. -/
theorem C104_words {table : List CliOption} (ok : Orderly table) (uses : List CliUse) (words : List Bytes) :
    readWords table words = some uses ↔ Spells table uses words :=
  ⟨spells_of_read ok words uses, read_of_spells ok⟩

theorem read_iff {table : List CliOption} (ok : Orderly table) (hk : ∀ o ∈ table, (o.long, o.valued) ∈ knownOptions)
    {F : CastFloats} {words : List Bytes} {o : Options} :
    readCommandLine table F words = some o ↔ ∃ uses, Spells table uses words ∧ SettingsOf F uses o := by
  unfold readCommandLine
  rw [Option.bind_eq_some_iff]
  refine exists_congr fun uses => ?_
  rw [C104_words ok]
  refine and_congr_right fun hs => ?_
  exact ⟨means_of_store (spells_fits hs hk), store_of_means (spells_fits hs hk)⟩

/-- **C104.** The options of the programs are those their help texts list, with those letters, and with values
where the help texts say `arg`. -/
theorem C104_documented :
    cdtTable.map helpColumn = documentedCdt.map ascii ∧
    initializeTable.map helpColumn = documentedInitialize.map ascii ∧
    viewerTable.map helpColumn = documentedViewer.map ascii := by
  refine ⟨?_, ?_, ?_⟩ <;> decide +kernel

theorem known_cdt : ∀ o ∈ cdtTable, (o.long, o.valued) ∈ knownOptions := by decide +kernel
theorem known_initialize : ∀ o ∈ initializeTable, (o.long, o.valued) ∈ knownOptions := by decide +kernel
theorem known_viewer : ∀ o ∈ viewerTable, (o.long, o.valued) ∈ knownViewerOptions := by decide +kernel

/-- `cdt` reads these settings exactly if its words spell options that mean them. -/
theorem C104_cdt (F : CastFloats) (words : List Bytes) (o : Options) :
    readCommandLine cdtTable F words = some o ↔ ∃ uses, Spells cdtTable uses words ∧ SettingsOf F uses o :=
  read_iff C104_tables.1 known_cdt

/-- `initialize` likewise. -/
theorem C104_initialize (F : CastFloats) (words : List Bytes) (o : Options) :
    readCommandLine initializeTable F words = some o ↔ ∃ uses, Spells initializeTable uses words ∧ SettingsOf F uses o :=
  read_iff C104_tables.2.1 known_initialize

/-- `cdt-viewer` likewise. -/
theorem C104_viewer (words : List Bytes) (o : ViewerOptions) :
    readViewerCommandLine words = some o ↔ ∃ uses, Spells viewerTable uses words ∧ ViewerSettingsOf uses o := by
  unfold readViewerCommandLine
  rw [Option.bind_eq_some_iff]
  refine exists_congr fun uses => ?_
  rw [C104_words C104_tables.2.2]
  refine and_congr_right fun hs => ?_
  exact ⟨viewer_means_of_store (spells_fits hs known_viewer), viewer_store_of_means (spells_fits hs known_viewer)⟩

section
variable {M S P T : Type} (host : Host M S P T) (out : Outside M S) (F : CastFloats)

/-- The run of `cdt` is that of the settings its command line means; without a meaning it exits with
status 1, has written nothing, and the disk is as it was. -/
theorem C104_cdt_program (words : List Bytes) (disk : Disk) :
    (∀ uses o, Spells cdtTable uses words → SettingsOf F uses o →
      cdtProgram host out F words disk = cdtMain host out (some o) disk) ∧
    ((¬∃ uses o, Spells cdtTable uses words ∧ SettingsOf F uses o) →
      cdtProgram host out F words disk = (1, ⟨disk, []⟩)) := by
  unfold cdtProgram
  refine ⟨fun uses o hs hm => by rw [(C104_cdt F words o).2 ⟨uses, hs, hm⟩], fun h => ?_⟩
  cases hr : readCommandLine cdtTable F words with
  | none => rfl
  | some o =>
    obtain ⟨uses, hu⟩ := (C104_cdt F words o).1 hr
    exact absurd ⟨uses, o, hu⟩ h

/-- The same of `initialize`. -/
theorem C104_initialize_program (words : List Bytes) (disk : Disk) :
    (∀ uses o, Spells initializeTable uses words → SettingsOf F uses o →
      initializeProgram host out F words disk = initializeMain host out (some o) disk) ∧
    ((¬∃ uses o, Spells initializeTable uses words ∧ SettingsOf F uses o) →
      initializeProgram host out F words disk = (1, ⟨disk, []⟩)) := by
  unfold initializeProgram
  refine ⟨fun uses o hs hm => by rw [(C104_initialize F words o).2 ⟨uses, hs, hm⟩], fun h => ?_⟩
  cases hr : readCommandLine initializeTable F words with
  | none => rfl
  | some o =>
    obtain ⟨uses, hu⟩ := (C104_initialize F words o).1 hr
    exact absurd ⟨uses, o, hu⟩ h

/-- The same of `cdt-viewer`: without a meaning it exits with status 1, opens no window, and the files are
as they were. -/
theorem C104_viewer_program (view : ViewerHost T) (words : List Bytes) (events : List UiEvent) (fs : Files) :
    (∀ uses o, Spells viewerTable uses words → ViewerSettingsOf uses o →
      viewerProgram view words events fs = viewerMain view (some o) events fs) ∧
    ((¬∃ uses o, Spells viewerTable uses words ∧ ViewerSettingsOf uses o) →
      viewerProgram view words events fs = some (1, fs)) := by
  unfold viewerProgram
  refine ⟨fun uses o hs hm => by rw [(C104_viewer words o).2 ⟨uses, hs, hm⟩], fun h => ?_⟩
  cases hr : readViewerCommandLine words with
  | none => rfl
  | some o =>
    obtain ⟨uses, hu⟩ := (C104_viewer words o).1 hr
    exact absurd ⟨uses, o, hu⟩ h

end

theorem setting_perm {α β : Type} {a b : List CliUse} (h : a.Perm b) {name : String} {reads : Bytes → α → Prop}
    {put : α → β} {d x : β} (hs : Setting a name reads put d x) : Setting b name reads put d x := by
  rcases hs with ⟨v, y, hv, hy⟩ | ⟨hn, e⟩
  · exact .inl ⟨v, y, h.subset hv, hy⟩
  · exact .inr ⟨fun u hu => hn u (h.symm.subset hu), e⟩

theorem switch_perm {a b : List CliUse} (h : a.Perm b) {name : String} {x : Bool} (hs : Switch a name x) :
    Switch b name x := by
  unfold Switch at *
  rw [hs]
  exact ⟨fun ⟨u, hu, e⟩ => ⟨u, h.subset hu, e⟩, fun ⟨u, hu, e⟩ => ⟨u, h.symm.subset hu, e⟩⟩

theorem means_perm {F : CastFloats} {a b : List CliUse} (h : a.Perm b) {o : Options} (hm : SettingsOf F a o) : SettingsOf F b o where
  once := (h.map _).nodup_iff.1 hm.once
  help := switch_perm h hm.help
  version := switch_perm h hm.version
  spherical := switch_perm h hm.spherical
  toroidal := switch_perm h hm.toroidal
  noOutput := switch_perm h hm.noOutput
  output := switch_perm h hm.output
  simplices := setting_perm h hm.simplices
  timeslices := setting_perm h hm.timeslices
  dimensions := setting_perm h hm.dimensions
  threads := setting_perm h hm.threads
  passes := setting_perm h hm.passes
  checkpoint := setting_perm h hm.checkpoint
  seed := setting_perm h hm.seed
  initialRadius := setting_perm h hm.initialRadius
  foliationSpacing := setting_perm h hm.foliationSpacing
  alpha := setting_perm h hm.alpha
  k := setting_perm h hm.k
  lambda := setting_perm h hm.lambda

theorem order_of {table : List CliOption} (ok : Orderly table)
    (hk : ∀ o ∈ table, (o.long, o.valued) ∈ knownOptions) (F : CastFloats) {uses uses' : List CliUse}
    {words words' : List Bytes} (h : Spells table uses words) (h' : Spells table uses' words') (hp : uses.Perm uses') :
    readCommandLine table F words = readCommandLine table F words' := by
  have key : ∀ {a b : List CliUse} {v w : List Bytes}, Spells table a v → Spells table b w → a.Perm b →
      ∀ o, readCommandLine table F v = some o → readCommandLine table F w = some o := by
    intro a b v w hv hw hab o ho
    obtain ⟨us, hs, hm⟩ := (read_iff ok hk).1 ho
    have e : us = a := Option.some.inj (((C104_words ok us v).2 hs).symm.trans ((C104_words ok a v).2 hv))
    subst e
    exact (read_iff ok hk).2 ⟨b, hw, means_perm hab hm⟩
  cases hr : readCommandLine table F words with
  | some o => exact (key h h' hp o hr).symm
  | none =>
    cases hr' : readCommandLine table F words' with
    | none => rfl
    | some o => rw [key h' h hp.symm o hr'] at hr; simp at hr

/-- The order of the options and the way each is written make no difference: two command lines that spell
the same uses, in whatever order, are read alike (or both refused). -/
theorem C104_order (F : CastFloats) :
    (∀ {uses uses' : List CliUse} {words words' : List Bytes}, Spells cdtTable uses words → Spells cdtTable uses' words' →
      uses.Perm uses' → readCommandLine cdtTable F words = readCommandLine cdtTable F words') ∧
    (∀ {uses uses' : List CliUse} {words words' : List Bytes}, Spells initializeTable uses words →
      Spells initializeTable uses' words' → uses.Perm uses' →
      readCommandLine initializeTable F words = readCommandLine initializeTable F words') :=
  ⟨order_of C104_tables.1 known_cdt F, order_of C104_tables.2.1 known_initialize F⟩

/-- The plainest way to write a use: `--name` or `--name=value`. -/
def plainWord (u : CliUse) : Bytes :=
  match u.value with
  | none => ascii "--" ++ u.name
  | some v => ascii "--" ++ u.name ++ ascii "=" ++ v

/-- Whatever is written plainly is read back as it was meant. -/
theorem C104_plain (uses : List CliUse)
    (h : ∀ u ∈ uses, ∃ o ∈ cdtTable, u.name = o.long ∧ u.value.isSome = o.valued ∧ u.value ≠ some []) :
    readWords cdtTable (uses.map plainWord) = some uses := by
  rw [C104_words C104_tables.1]
  have hname : ∀ o ∈ cdtTable, o.long ≠ [] ∧ equalsSign ∉ o.long := by decide +kernel
  induction uses with
  | nil => exact .nothing
  | cons u us ih =>
    have ih := ih fun x hx => h x (List.mem_cons_of_mem _ hx)
    obtain ⟨o, ho, hn, hv, h0⟩ := h u (by simp)
    obtain ⟨n, v⟩ := u
    simp only at hn hv h0
    subst hn
    cases v with
    | none =>
      exact Spells.long (hname o ho).1 (hname o ho).2 (.inl ⟨ho, .inl rfl⟩) (by simpa using hv.symm) ih
    | some v =>
      exact Spells.longEquals (hname o ho).1 (hname o ho).2 (.inl ⟨ho, .inl rfl⟩) (by simpa using hv.symm)
        (by simpa using h0) ih

example : readWords cdtTable (List.map plainWord
    [⟨ascii "spherical", none⟩, ⟨ascii "simplices", some (ascii "64")⟩, ⟨ascii "lambda", some (ascii "-0.1")⟩]) =
    some [⟨ascii "spherical", none⟩, ⟨ascii "simplices", some (ascii "64")⟩, ⟨ascii "lambda", some (ascii "-0.1")⟩] :=
  C104_plain _ (by decide +kernel)

/-- Words that are not options are ignored wherever an option may stand, without a complaint. -/
theorem C104_stray_words (F : CastFloats) (word : Bytes) (words : List Bytes) (h : word.head? ≠ some minusSign) :
    readCommandLine cdtTable F (word :: words) = readCommandLine cdtTable F words := by
  have : ∀ us, readWords cdtTable (word :: words) = some us ↔ readWords cdtTable words = some us := by
    intro us
    constructor
    · intro hr
      have hs := (C104_words C104_tables.1 us _).1 hr
      generalize hw : word :: words = ws at hs
      cases hs with
      | nothing => simp at hw
      | stray _ hs => cases hw; exact (C104_words C104_tables.1 us _).2 hs
      | _ => cases hw; simp at h
    · exact fun hr => (C104_words C104_tables.1 us _).2 (.stray (.inr h) ((C104_words C104_tables.1 us _).1 hr))
  have e : readWords cdtTable (word :: words) = readWords cdtTable words := by
    ext us; exact this us
  unfold readCommandLine
  rw [e]

/-- A seed with a minus sign is accepted and wraps. -/
theorem C104_negative_seed (n : ℕ) (h0 : 0 < n) (h : n < 2 ^ 64) (w : BitVec 64) :
    WritesWord (minusSign :: decimal n) w ↔ w.toNat = 2 ^ 64 - n := by
  have hw : WritesWord (minusSign :: decimal n) (BitVec.ofNat 64 (2 ^ 64 - n)) := by
    refine ⟨n, h, .inr ⟨?_, _, rfl, 0, by simp⟩⟩
    rw [BitVec.toNat_ofNat, Nat.mod_eq_of_lt (by omega), ← Int.add_emod_right, Int.emod_eq_of_lt] <;> omega
  constructor
  · intro h'
    rw [word_unique _ _ _ h' hw, BitVec.toNat_ofNat, Nat.mod_eq_of_lt (by omega)]
  · intro h'
    have : w = BitVec.ofNat 64 (2 ^ 64 - n) := by
      apply BitVec.eq_of_toNat_eq
      rw [h', BitVec.toNat_ofNat, Nat.mod_eq_of_lt (by omega)]
    rw [this]; exact hw

/-! Concrete command lines -/

deriving instance DecidableEq for Options
deriving instance DecidableEq for ViewerOptions

/-- The conversions of the few floating-point texts used below. -/
def fewFloats : CastFloats :=
  let f : Bytes → Option LD := fun t =>
    if t = ascii "0.6" ∨ t = ascii ".6" then some (.fin (3 / 5)) else if t = ascii "1.1" then some (.fin (11 / 10))
    else if t = ascii "0.1" ∨ t = ascii ".1" then some (.fin (1 / 10)) else if t = ascii "1.0" then some (.fin 1) else none
  ⟨f, f⟩

/-- The two examples of the usage text of `cdt` (src/cdt.cpp:57-58) mean the same, but for the seed. -/
example :
    readCommandLine cdtTable fewFloats [ascii "--spherical", ascii "-n", ascii "32000", ascii "-t", ascii "11", ascii "--alpha",
      ascii "0.6", ascii "-k", ascii "1.1", ascii "--lambda", ascii "0.1", ascii "--passes", ascii "1000"] =
      some { spherical := true, simplices := some 32000, timeslices := some 11, alpha := some (.fin (3 / 5)),
             k := some (.fin (11 / 10)), lambda := some (.fin (1 / 10)), passes := 1000 } ∧
    readCommandLine cdtTable fewFloats [ascii "-s", ascii "-n32000", ascii "-t11", ascii "-a.6", ascii "-k1.1", ascii "-l.1",
      ascii "-p1000", ascii "--seed", ascii "92"] =
      some { spherical := true, simplices := some 32000, timeslices := some 11, alpha := some (.fin (3 / 5)),
             k := some (.fin (11 / 10)), lambda := some (.fin (1 / 10)), passes := 1000, seed := some 92#64 } := by
  decide +kernel

/-- Those of `initialize` (src/initialize.cpp:50-51). -/
example :
    readCommandLine initializeTable fewFloats [ascii "--spherical", ascii "--simplices", ascii "32000",
      ascii "--timeslices", ascii "11", ascii "--init", ascii "1.0", ascii "--foliate", ascii "1.0", ascii "--output"] =
      some { spherical := true, simplices := some 32000, timeslices := some 11, output := true } ∧
    readCommandLine initializeTable fewFloats [ascii "-s", ascii "-n32000", ascii "-t11", ascii "-i1.0", ascii "-f1.0",
      ascii "-o", ascii "--seed", ascii "92"] =
      some { spherical := true, simplices := some 32000, timeslices := some 11, output := true, seed := some 92#64 } := by
  decide +kernel

/-- That of `cdt-viewer` (src/cdt-viewer.cpp:83), with an abbreviated option. -/
example : readViewerCommandLine [ascii "--manifest", ascii "m.json", ascii "--out", ascii "a.png"] =
    some { manifest := some (ascii "m.json"), output := ascii "a.png" } := by decide +kernel

/-- A blank in a number loses its end without a complaint; a group of letters; an abbreviation. -/
example : readCommandLine cdtTable fewFloats [ascii "-n", ascii "32", ascii "000", ascii "-sn4", ascii "--pas", ascii "7"] = none ∧
    readCommandLine cdtTable fewFloats [ascii "-n", ascii "32", ascii "000", ascii "-st4", ascii "--pas", ascii "7"] =
      some { spherical := true, simplices := some 32, timeslices := some 4, passes := 7 } := by decide +kernel

/-- Refused: an unknown option, an option twice, a missing value, a value for a switch, an ambiguous
abbreviation, an empty value, a number with an end that is none, a number out of range. -/
example : ∀ words ∈ [[ascii "--frobnicate"], [ascii "-s", ascii "--spherical"], [ascii "-n"], [ascii "-n", ascii "-t"],
      [ascii "--spherical=1"], [ascii "--s"], [ascii "--seed="], [ascii "-n", ascii "12x"],
      [ascii "-n", ascii "9223372036854775808"], [ascii "--seed", ascii "18446744073709551616"]],
    readCommandLine cdtTable fewFloats words = none := by decide +kernel

/-- Accepted: the ends of the ranges. -/
example : ∀ c ∈ [([ascii "-n", ascii "9223372036854775807"], (2 ^ 63 - 1 : ℤ)), ([ascii "-n-9223372036854775808"], -2 ^ 63)],
    readCommandLine cdtTable fewFloats c.1 = some { simplices := some c.2 } := by decide +kernel

/-- A negative seed wraps. -/
example : readCommandLine cdtTable fewFloats [ascii "--seed=-1"] = some { seed := some 0xFFFFFFFFFFFFFFFF#64 } := by
  decide +kernel

/-- The hypotheses of `C104_order` and the alternatives of the program theorems are met. -/
example : ∃ uses uses' : List CliUse,
    Spells cdtTable uses [ascii "-s", ascii "-n", ascii "64"] ∧
    Spells cdtTable uses' [ascii "--simpl=64", ascii "--sph"] ∧ uses.Perm uses' ∧ uses ≠ uses' := by
  refine ⟨[⟨ascii "spherical", none⟩, ⟨ascii "simplices", some (ascii "64")⟩],
    [⟨ascii "simplices", some (ascii "64")⟩, ⟨ascii "spherical", none⟩], ?_, ?_, List.Perm.swap .., by decide +kernel⟩
  · rw [← C104_words C104_tables.1]; decide +kernel
  · rw [← C104_words C104_tables.1]; decide +kernel

example : ¬∃ uses o, Spells cdtTable uses [ascii "--frobnicate"] ∧ SettingsOf fewFloats uses o := by
  rintro ⟨uses, o, h⟩
  have := (C104_cdt fewFloats [ascii "--frobnicate"] o).2 ⟨uses, h⟩
  rw [show readCommandLine cdtTable fewFloats [ascii "--frobnicate"] = none by decide +kernel] at this
  simp at this

end CDT.Props
