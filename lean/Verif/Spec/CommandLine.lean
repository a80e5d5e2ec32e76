import Verif.Model.CommandLine
/-
What a command line says, declaratively.  Nothing here reads words: `Spells` is the grammar of the
command line, one rule per way of writing an option, and `SettingsOf` says which value each setting then has.
Of the model only the data types (`CliOption`, `CliUse`, `Options`, `ViewerOptions`) are used.
-/
namespace CDT.Spec

/-- `o` is the option of the table called exactly `n`: by its long name or by a dash and its letter. -/
def Called (table : List CliOption) (n : Bytes) (o : CliOption) : Prop :=
  o ∈ table ∧ (o.long = n ∨ ∃ c, o.letter = some c ∧ n = [minusSign, c])

/-- `n` refers to `o`: it is called so, or nothing is called so and its long name is the only one that
begins with `n`. -/
def RefersTo (table : List CliOption) (n : Bytes) (o : CliOption) : Prop :=
  Called table n o ∨
    (∀ p, ¬Called table n p) ∧ (o ∈ table ∧ n <+: o.long) ∧ ∀ p ∈ table, n <+: p.long → p = o

/-- `o` is the option with the letter `c`. -/
def Lettered (table : List CliOption) (c : Byte) (o : CliOption) : Prop := o ∈ table ∧ o.letter = some c

/-- The letters are those of options without a value, in order. -/
def Switches (table : List CliOption) (letters : Bytes) (os : List CliOption) : Prop :=
  List.Forall₂ (fun c o => Lettered table c o ∧ o.valued = false) letters os

/-- A word that may stand as the value of the option before it: any but the letter of an option after a
dash, and a long option with an equals sign and nothing behind it. -/
def MayBeValue (table : List CliOption) (v : Bytes) : Prop :=
  (∀ c o, Lettered table c o → v ≠ [minusSign, c]) ∧
  ∀ n, equalsSign ∉ n → v ≠ [minusSign, minusSign] ++ n ++ [equalsSign]

/-- A table in which every option can be called: distinct nonempty long names that do not begin with a dash,
distinct letters other than the dash. -/
structure Orderly (table : List CliOption) : Prop where
  names : (table.map (·.long)).Nodup
  plain : ∀ o ∈ table, o.long ≠ [] ∧ o.long.head? ≠ some minusSign
  letters : (table.filterMap (·.letter)).Nodup
  dashless : minusSign ∉ table.filterMap (·.letter)

/-- An option without a value. -/
def on (o : CliOption) : CliUse := ⟨o.long, none⟩
/-- An option with one. -/
def set (o : CliOption) (v : Bytes) : CliUse := ⟨o.long, some v⟩

/-- `Spells table uses words`: the words are a way of writing these uses of options. -/
inductive Spells (table : List CliOption) : List CliUse → List Bytes → Prop
  /-- an empty command line says nothing -/
  | nothing : Spells table [] []
  /-- a word that is not an option is ignored -/
  | stray {us ws w} : w = [minusSign] ∨ w.head? ≠ some minusSign → Spells table us ws → Spells table us (w :: ws)
  /-- nothing is read after `--` -/
  | stop {ws} : Spells table [] ([minusSign, minusSign] :: ws)
  /-- `--=v` is ignored -/
  | nameless {us ws v} : v ≠ [] → Spells table us ws →
      Spells table us (([minusSign, minusSign, equalsSign] ++ v) :: ws)
  /-- `--name` -/
  | long {us ws n o} : n ≠ [] → equalsSign ∉ n → RefersTo table n o → o.valued = false → Spells table us ws →
      Spells table (on o :: us) (([minusSign, minusSign] ++ n) :: ws)
  /-- `--name=v` -/
  | longEquals {us ws n o v} : n ≠ [] → equalsSign ∉ n → RefersTo table n o → o.valued = true → v ≠ [] →
      Spells table us ws → Spells table (set o v :: us) (([minusSign, minusSign] ++ n ++ [equalsSign] ++ v) :: ws)
  /-- `--name v` -/
  | longThen {us ws n o v} : n ≠ [] → equalsSign ∉ n → RefersTo table n o → o.valued = true → MayBeValue table v →
      Spells table us ws → Spells table (set o v :: us) (([minusSign, minusSign] ++ n) :: v :: ws)
  /-- `-a`, `-abc` -/
  | short {us ws cs os} : cs ≠ [] → Switches table cs os → Spells table us ws →
      Spells table (os.map on ++ us) ((minusSign :: cs) :: ws)
  /-- `-cv`, `-abcv` -/
  | shortWith {us ws cs os c o v} : Switches table cs os → Lettered table c o → o.valued = true → v ≠ [] →
      Spells table us ws → Spells table (os.map on ++ set o v :: us) ((minusSign :: cs ++ c :: v) :: ws)
  /-- `-c v`, `-abc v` -/
  | shortThen {us ws cs os c o v} : Switches table cs os → Lettered table c o → o.valued = true →
      MayBeValue table v → Spells table us ws →
      Spells table (os.map on ++ set o v :: us) ((minusSign :: cs ++ [c]) :: v :: ws)

/-- The decimal notation of `n`, perhaps after zeros. -/
def Digits (t : Bytes) (n : ℕ) : Prop := ∃ k, t = List.replicate k (digitByte 0) ++ decimal n

/-- The text is the number: an optional sign, digits, and in the range of 64 bits. -/
def WritesInteger (t : Bytes) (z : ℤ) : Prop :=
  -2 ^ 63 ≤ z ∧ z < 2 ^ 63 ∧
  ∃ n : ℕ, (z = n ∧ (Digits t n ∨ ∃ d, t = 43#8 :: d ∧ Digits d n)) ∨ z = -(n : ℤ) ∧ ∃ d, t = minusSign :: d ∧ Digits d n

/-- The text is the number modulo `2 ^ 64`: an optional sign, digits of at most `2 ^ 64 - 1`. -/
def WritesWord (t : Bytes) (w : BitVec 64) : Prop :=
  ∃ n : ℕ, n < 2 ^ 64 ∧ ((w.toNat = n ∧ (Digits t n ∨ ∃ d, t = 43#8 :: d ∧ Digits d n)) ∨
    ((w.toNat : ℤ) = (-(n : ℤ)) % 2 ^ 64 ∧ ∃ d, t = minusSign :: d ∧ Digits d n))

/-- The switch is on exactly if it is given. -/
def Switch (uses : List CliUse) (name : String) (actual : Bool) : Prop :=
  actual = true ↔ ∃ u ∈ uses, u.name = ascii name

/-- The setting is what the value of the option says, or the default if the option is not given. -/
def Setting {α β : Type} (uses : List CliUse) (name : String) (reads : Bytes → α → Prop) (put : α → β)
    (default actual : β) : Prop :=
  (∃ v a, ⟨ascii name, some v⟩ ∈ uses ∧ reads v a ∧ actual = put a) ∨
  (∀ u ∈ uses, u.name ≠ ascii name) ∧ actual = default

/-- These uses give these settings of `cdt` and `initialize`; no option is given twice. -/
structure SettingsOf (F : CastFloats) (uses : List CliUse) (o : Options) : Prop where
  once : (uses.map (·.name)).Nodup
  help : Switch uses "help" o.help
  version : Switch uses "version" o.version
  spherical : Switch uses "spherical" o.spherical
  toroidal : Switch uses "toroidal" o.toroidal
  noOutput : Switch uses "no-output" o.noOutput
  output : Switch uses "output" o.output
  simplices : Setting uses "simplices" WritesInteger some none o.simplices
  timeslices : Setting uses "timeslices" WritesInteger some none o.timeslices
  dimensions : Setting uses "dimensions" WritesInteger id 3 o.dimensions
  threads : Setting uses "threads" WritesInteger id 1 o.threads
  passes : Setting uses "passes" WritesInteger id 100 o.passes
  checkpoint : Setting uses "checkpoint" WritesInteger id 10 o.checkpoint
  seed : Setting uses "seed" WritesWord some none o.seed
  initialRadius : Setting uses "init" (fun v x => F.double v = some x) id (.fin 1) o.initialRadius
  foliationSpacing : Setting uses "foliate" (fun v x => F.double v = some x) id (.fin 1) o.foliationSpacing
  alpha : Setting uses "alpha" (fun v x => F.longDouble v = some x) some none o.alpha
  k : Setting uses "k" (fun v x => F.longDouble v = some x) some none o.k
  lambda : Setting uses "lambda" (fun v x => F.longDouble v = some x) some none o.lambda

/-- These uses give these settings of the viewer; no option is given twice. -/
structure ViewerSettingsOf (uses : List CliUse) (o : ViewerOptions) : Prop where
  once : (uses.map (·.name)).Nodup
  help : Switch uses "help" o.help
  version : Switch uses "version" o.version
  manifest : Setting uses "manifest" (fun v x => v = x) some none o.manifest
  fixture : Setting uses "fixture" (fun v x => v = x) id [] o.fixture
  output : Setting uses "output" (fun v x => v = x) id [] o.output

end CDT.Spec
