import Verif.Model.Basic

/-
Enumerations with a text form: the shape shared by every enumeration of private/mx/core/Enums.cpp.
-/
namespace Mx

open Lean in
/-- `chars "abc"` is the explicit list `['a', 'b', 'c']`. -/
macro "chars" s:str : term => do
  let elems : Array (TSyntax `term) := (s.getString.toList.map (fun c => (⟨Syntax.mkCharLit c⟩ : TSyntax `term))).toArray
  `(([$elems,*] : List Char))

/-- A chain `if( value == "a" ) { return A; } else if( value == "b" ) { return B; } ...`: the first row that matches. -/
def ifChain {α : Type} : List (Str × α) → Str → Option α
  | [], _ => none
  | (k, v) :: rest, s => if s = k then some v else ifChain rest s

/-- The functions generated for each enumeration `X` of private/mx/core/Enums.cpp: the rows of `tryParseX`, `toString` and the value returned by
`parseX` for any other text. -/
class StringEnum (α : Type) where
  chain : List (Str × α)
  toStr : α → Str
  fallback : α

/-- `tryParseX`. -/
def tryParse {α : Type} [StringEnum α] (s : Str) : Option α := ifChain StringEnum.chain s

/-- `parseX`: `tryParseX( value ).value_or( fallback )`. -/
def parseEnum {α : Type} [StringEnum α] (s : Str) : α := (tryParse s).getD StringEnum.fallback

end Mx
