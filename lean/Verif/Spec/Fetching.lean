import Verif.Model.GetAstro
import Mathlib.Data.Rat.Floor
/-
Vocabulary of C79: what the fetching script is to ask for, and when its events happen.
-/
set_option autoImplicit false

namespace Verif.Spec.Fetching
open Verif.Model.GetAstro (Event)

/-- The question and the file of a year. -/
def wanted (clientId clientSecret year : String) : String × String :=
  ("http://api.aerisapi.com/sunmoon/moonphases/london,uk" ++ "?from=" ++ year ++ "/01/01" ++ "&to=" ++ year ++ "/12/31" ++ "&limit=250" ++
    "&client_id=" ++ clientId ++ "&client_secret=" ++ clientSecret, "astro-" ++ year ++ ".json")

/-- The questions among some events. -/
def fetches : List Event → List (String × String)
  | [] => []
  | .fetch url file :: es => (url, file) :: fetches es
  | _ :: es => fetches es

/-- Times, in seconds, at which events may happen: in order, and the clock shows whole seconds. -/
def Timed (es : List (Event × ℚ)) : Prop :=
  es.Pairwise (fun a b => a.2 ≤ b.2) ∧ ∀ seconds t, (Event.clock seconds, t) ∈ es → seconds = ⌊t⌋

/-- The clock goes on without end. -/
def GoesOn (date : Nat → Int) : Prop := ∀ m : Int, ∃ k, ∀ j, k ≤ j → m ≤ date j

end Verif.Spec.Fetching
