/-
Specification of command lines, for C78: how options are written and what they say. Written without reference to the model.
-/
set_option autoImplicit false

namespace Verif.Spec.CommandLine

/-- The words writing some options, in order: `-name value`, `--name value`, `-name=value` or `--name=value`. -/
inductive Options (names : List String) : List String → List (String × String) → Prop
  | none : Options names [] []
  | apart {words : List String} {opts : List (String × String)} (dash name value : String) (hd : dash = "-" ∨ dash = "--")
      (hn : name ∈ names) (h : Options names words opts) : Options names ((dash ++ name) :: value :: words) ((name, value) :: opts)
  | joined {words : List String} {opts : List (String × String)} (dash name value : String) (hd : dash = "-" ∨ dash = "--")
      (hn : name ∈ names) (h : Options names words opts) : Options names ((dash ++ name ++ "=" ++ value) :: words) ((name, value) :: opts)

/-- A word starts with a minus sign. -/
def Dashed (word : String) : Prop := ∃ rest, word = "-" ++ rest

/-- What the options say about a name: the last value given, else the empty text. -/
inductive Says : List (String × String) → String → String → Prop
  | missing {opts : List (String × String)} (name : String) (h : ∀ o ∈ opts, o.1 ≠ name) : Says opts name ""
  | given {before after : List (String × String)} (name value : String) (h : ∀ o ∈ after, o.1 ≠ name) :
      Says (before ++ (name, value) :: after) name value

/-- A word writing an on/off option: `-name` or `--name`, or one of these with `=` and a value. -/
inductive Switch (name : String) : String → Option String → Prop
  | bare (dash : String) (hd : dash = "-" ∨ dash = "--") : Switch name (dash ++ name) none
  | valued (dash value : String) (hd : dash = "-" ∨ dash = "--") : Switch name (dash ++ name ++ "=" ++ value) (some value)

/-- The values that switch an option on; without a value it is on. -/
def On (value : Option String) : Prop := value = none ∨ ∃ v ∈ ["1", "t", "T", "true", "True", "TRUE"], value = some v
/-- The values that switch an option off. -/
def Off (value : Option String) : Prop := ∃ v ∈ ["0", "f", "F", "false", "False", "FALSE"], value = some v

end Verif.Spec.CommandLine
