import Verif.Model.Args

/-!
# Specification: command lines
-/

namespace PySailing.Spec

open PySailing

/-- `--d`, `--dv`, …, `--dvars`. -/
def LongName (o : Word) : Prop := 3 ≤ o.length ∧ o <+: "--dvars".toList

/-- `--h`, `--he`, …, `--help`. -/
def LongHelp (o : Word) : Prop := 3 ≤ o.length ∧ o <+: "--help".toList

/-- The names of the option. -/
def OptionName (o : Word) : Prop := o = "-dv".toList ∨ o = "-d".toList ∨ LongName o

/-- The names that can be joined to a value with `=`. -/
def JoinedName (o : Word) : Prop := o = "-dv".toList ∨ LongName o

/-- Negative numbers: `-12`, `-1.5`, `-.5`. -/
def NegativeNumber (v : Word) : Prop :=
  ∃ a b : Word, (∀ c ∈ a, c.isDigit) ∧ (∀ c ∈ b, c.isDigit) ∧ b ≠ [] ∧ (v = '-' :: b ∨ v = '-' :: a ++ '.' :: b)

/-- Words with a space that are options all the same: `-h…`, `--dvars=…`, `--help=…`, `--=…`. -/
def OptionLike (v : Word) : Prop :=
  "-h".toList <+: v ∨ ∃ o x, (JoinedName o ∨ LongHelp o ∨ o = "--".toList) ∧ v = o ++ '=' :: x

/-- Words that can be the value of the option when they follow it: all that do not begin with a minus, a single minus,
negative numbers, and words with a space that are no options. -/
def ValueWord (v : Word) : Prop :=
  v.head? ≠ some '-' ∨ v = "-".toList ∨ NegativeNumber v ∨ (' ' ∈ v ∧ ¬ OptionLike v)

/-- The command lines of the program, and the directory they name: the option any number of times, with the value
in the next word or after `=`; the last one counts. -/
inductive Selects : List Word → Option Word → Prop
  | nothing : Selects [] none
  | apart (o v : Word) (rest : List Word) (r : Option Word) :
      OptionName o → ValueWord v → Selects rest r → Selects (o :: v :: rest) (r.or (some v))
  | joined (o v : Word) (rest : List Word) (r : Option Word) :
      JoinedName o → Selects rest r → Selects ((o ++ '=' :: v) :: rest) (r.or (some v))

/-- Words that ask for help. -/
def HelpWord (w : Word) : Prop := "-h".toList <+: w ∨ LongHelp w

end PySailing.Spec
