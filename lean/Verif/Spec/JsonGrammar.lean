import Verif.Model.Unmarshal
/-
The grammar of JSON texts after RFC 8259, with white space. Nothing here models code; only the type of values is the model's.
-/
set_option autoImplicit false

namespace Verif.Spec.Grammar
open Verif.Model.Unmarshal (JVal)

/-- ws = *( %x20 / %x09 / %x0A / %x0D ) -/
def Ws (l : List Char) : Prop := ∀ c ∈ l, c = ' ' ∨ c = '\t' ∨ c = '\n' ∨ c = '\r'

/-- 1*DIGIT -/
def Digits (l : List Char) : Prop := l ≠ [] ∧ ∀ c ∈ l, '0' ≤ c ∧ c ≤ '9'

/-- int = zero / ( digit1-9 *DIGIT ) -/
def Whole (l : List Char) : Prop := l = ['0'] ∨ (Digits l ∧ l.head? ≠ some '0')

/-- [ decimal-point 1*DIGIT ] -/
def Fraction (l : List Char) : Prop := l = [] ∨ ∃ ds, Digits ds ∧ l = '.' :: ds

/-- [ e [ minus / plus ] 1*DIGIT ] -/
def Exponent (l : List Char) : Prop :=
  l = [] ∨ ∃ e s ds, (e = 'e' ∨ e = 'E') ∧ (s = [] ∨ s = ['+'] ∨ s = ['-']) ∧ Digits ds ∧ l = e :: (s ++ ds)

/-- number = [ minus ] int [ frac ] [ exp ] -/
def Number (l : List Char) : Prop :=
  ∃ m a b c, (m = [] ∨ m = ['-']) ∧ Whole a ∧ Fraction b ∧ Exponent c ∧ l = m ++ (a ++ b ++ c)

/-- HEXDIG -/
def Hex (c : Char) : Prop := ('0' ≤ c ∧ c ≤ '9') ∨ ('a' ≤ c ∧ c ≤ 'f') ∨ ('A' ≤ c ∧ c ≤ 'F')

/-- *char, between the quotation marks -/
inductive Chars : List Char → Prop where
  | nil : Chars []
  | unescaped {c : Char} {l : List Char} (h : c ≠ '"' ∧ c ≠ '\\' ∧ 32 ≤ c.toNat) (t : Chars l) : Chars (c :: l)
  | escape {c : Char} {l : List Char} (h : c ∈ ['"', '\\', '/', 'b', 'f', 'n', 'r', 't']) (t : Chars l) : Chars ('\\' :: c :: l)
  | unicode {a b c d : Char} {l : List Char} (h : Hex a ∧ Hex b ∧ Hex c ∧ Hex d) (t : Chars l) :
      Chars ('\\' :: 'u' :: a :: b :: c :: d :: l)

mutual
/-- value = false / null / true / object / array / number / string -/
inductive Text : JVal → List Char → Prop where
  | null : Text .null ['n', 'u', 'l', 'l']
  | true : Text (.bool true) ['t', 'r', 'u', 'e']
  | false : Text (.bool false) ['f', 'a', 'l', 's', 'e']
  | num {l : List Char} (h : Number l) : Text (.num l) l
  | str {l : List Char} (h : Chars l) : Text (.str l) ('"' :: (l ++ ['"']))
  | emptyArr {w : List Char} (h : Ws w) : Text (.arr []) ('[' :: (w ++ [']']))
  | arr {vs : List JVal} {t : List Char} (h : Items vs t) : Text (.arr vs) ('[' :: t)
  | emptyObj {w : List Char} (h : Ws w) : Text (.obj []) ('{' :: (w ++ ['}']))
  | obj {fs : List (List Char × JVal)} {t : List Char} (h : Fields fs t) : Text (.obj fs) ('{' :: t)

/-- value *( value-separator value ) end-array, with white space around the values -/
inductive Items : List JVal → List Char → Prop where
  | last {v : JVal} {w t w' : List Char} (hw : Ws w) (ht : Text v t) (hw' : Ws w') : Items [v] (w ++ (t ++ (w' ++ [']'])))
  | more {v : JVal} {w t w' : List Char} {vs : List JVal} {ts : List Char} (hw : Ws w) (ht : Text v t) (hw' : Ws w')
      (hs : Items vs ts) : Items (v :: vs) (w ++ (t ++ (w' ++ ',' :: ts)))

/-- member *( value-separator member ) end-object; member = string name-separator value, with white space around each -/
inductive Fields : List (List Char × JVal) → List Char → Prop where
  | last {k : List Char} {v : JVal} {w w1 w2 t w' : List Char} (hw : Ws w) (hk : Chars k) (hw1 : Ws w1) (hw2 : Ws w2) (ht : Text v t)
      (hw' : Ws w') : Fields [(k, v)] (w ++ '"' :: (k ++ '"' :: (w1 ++ ':' :: (w2 ++ (t ++ (w' ++ ['}']))))))
  | more {k : List Char} {v : JVal} {w w1 w2 t w' : List Char} {fs : List (List Char × JVal)} {ts : List Char} (hw : Ws w)
      (hk : Chars k) (hw1 : Ws w1) (hw2 : Ws w2) (ht : Text v t) (hw' : Ws w') (hs : Fields fs ts) :
      Fields ((k, v) :: fs) (w ++ '"' :: (k ++ '"' :: (w1 ++ ':' :: (w2 ++ (t ++ (w' ++ ',' :: ts))))))
end

/-- JSON-text = ws value ws -/
def JsonText (v : JVal) (l : List Char) : Prop := ∃ w t w', Ws w ∧ Text v t ∧ Ws w' ∧ l = w ++ (t ++ w')

/-- A value in which at most `n` arrays and objects are inside one another. -/
inductive Nested : Nat → JVal → Prop
  | null (n : Nat) : Nested n .null
  | bool (n : Nat) (b : Bool) : Nested n (.bool b)
  | num (n : Nat) (t : List Char) : Nested n (.num t)
  | str (n : Nat) (t : List Char) : Nested n (.str t)
  | arr (n : Nat) (vs : List JVal) (h : ∀ v ∈ vs, Nested n v) : Nested (n + 1) (.arr vs)
  | obj (n : Nat) (fs : List (List Char × JVal)) (h : ∀ f ∈ fs, Nested n f.2) : Nested (n + 1) (.obj fs)

end Verif.Spec.Grammar
