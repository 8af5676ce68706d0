import Verif.Model.Argv

/-!
# Specification: how options are typed
-/

namespace Torchrir.Spec

open Torchrir.Model

/-- `-5` or `-0.5` or `-.5`. -/
def NegativeNumber (s : String) : Prop :=
  ∃ ds : List Char, (∀ c ∈ ds, c.isDigit) ∧
    ((ds ≠ [] ∧ s.toList = '-' :: ds) ∨
     ∃ fs : List Char, fs ≠ [] ∧ (∀ c ∈ fs, c.isDigit) ∧ s.toList = '-' :: (ds ++ '.' :: fs))

/-- A name of an option as it is typed: the whole name, or a beginning of it (at least the two dashes) with which no other
option begins, the help included. -/
inductive NameOf (opts : List Opt) : String → Opt → Prop
  | whole (o : Opt) (h : o ∈ opts) : NameOf opts o.flag o
  | short (w : String) (o : Opt) (h : o ∈ opts) (hd : "--".toList <+: w.toList) (hw : w.toList <+: o.flag.toList)
      (hu : ∀ f ∈ flagsOf opts, w.toList <+: f.toList → f = o.flag) : NameOf opts w o

/-- A word that can stand as an argument: it does not begin with a dash, or is a single dash, or is a negative number or
has a blank in it and cannot be taken for an option. -/
def ArgumentWord (opts : List Opt) (s : String) : Prop :=
  s.toList.head? ≠ some '-' ∨ s = "-" ∨
  ((NegativeNumber s ∨ ' ' ∈ s.toList) ∧ ¬ "-h".toList <+: s.toList ∧
    ∀ w, "--".toList <+: w → '=' ∉ w → (w = s.toList ∨ ∃ a, s.toList = w ++ '=' :: a) → ∀ f ∈ flagsOf opts, ¬ w <+: f.toList)

/-- A command line and the options with arguments that it means. -/
inductive TypedAs (opts : List Opt) : List String → List Given → Prop
  | nil : TypedAs opts [] []
  | switch (w : String) (o : Opt) (b : Bool) (argv : List String) (given : List Given) (hn : NameOf opts w o)
      (ha : o.action = .storeConst b) (h : TypedAs opts argv given) : TypedAs opts (w :: argv) (⟨o.flag, []⟩ :: given)
  | equals (w a : String) (o : Opt) (argv : List String) (given : List Given) (hn : NameOf opts w o)
      (ha : ∀ b, o.action ≠ .storeConst b) (h : TypedAs opts argv given) :
      TypedAs opts ((w ++ "=" ++ a) :: argv) (⟨o.flag, [a]⟩ :: given)
  | one (w a : String) (o : Opt) (t : ArgType) (choices : Option (List String)) (argv : List String) (given : List Given)
      (hn : NameOf opts w o) (ha : o.action = .store t choices) (hv : ArgumentWord opts a) (h : TypedAs opts argv given) :
      TypedAs opts (w :: a :: argv) (⟨o.flag, [a]⟩ :: given)
  | many (w : String) (as : List String) (o : Opt) (t : ArgType) (argv : List String) (given : List Given)
      (hn : NameOf opts w o) (ha : o.action = .storeMany t) (hne : as ≠ []) (hv : ∀ a ∈ as, ArgumentWord opts a)
      (hend : ∀ a, argv.head? = some a → ¬ ArgumentWord opts a) (h : TypedAs opts argv given) :
      TypedAs opts (w :: (as ++ argv)) (⟨o.flag, as⟩ :: given)

/-- Options as the programs define them: names with two dashes and without `=`, all different. -/
structure GoodOptions (opts : List Opt) : Prop where
  dashes : ∀ o ∈ opts, ∃ c cs, o.flag.toList = '-' :: '-' :: c :: cs
  plain : ∀ o ∈ opts, '=' ∉ o.flag.toList
  distinct : (flagsOf opts).Nodup

/-- The options can be typed: they exist and have the right number of arguments, and several arguments are such that none
is taken for an option. -/
def Typable (opts : List Opt) (g : Given) : Prop :=
  ∃ o ∈ opts, o.flag = g.flag ∧
    match o.action with
    | .storeConst _ => g.args = []
    | .store _ _ => ∃ a, g.args = [a]
    | .storeMany _ => (∃ a, g.args = [a]) ∨ (g.args ≠ [] ∧ ∀ a ∈ g.args, ArgumentWord opts a)

/-- A way to type an option: with `=` if it has one argument. -/
def spelled (g : Given) : List String :=
  match g.args with
  | [a] => [g.flag ++ "=" ++ a]
  | args => g.flag :: args

end Torchrir.Spec
