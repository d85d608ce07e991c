import Verif.Model.Integers
import Verif.Model.Decimals
import Verif.Model.CoreEnums

/-
Model of the text classes: private/mx/core/StringUtils.h, XsString.cpp, XsToken.cpp, XsID.cpp, CommaSeparatedText.cpp,
CommaSeparatedPositiveIntegers.cpp, FontSize.cpp, YesNoNumber.cpp, NumberOrNormal.cpp, PositiveIntegerOrEmpty.cpp, ProcessingInstruction.cpp;
private/mx/utility/StringToInt.h; the "misc data" of a note, private/mx/impl/NoteWriter.cpp 436-472 and NoteFunctions.cpp 350-396.
-/
namespace Mx

/-- `trim`, private/mx/core/StringUtils.h 17-27. -/
def trim (s : Str) : Str := ((s.dropWhile isWs).reverse.dropWhile isWs).reverse

/-- The loop of `reduce`, private/mx/core/StringUtils.h 38-49: each run of white space becomes the fill `" "`.  The flag says that the characters
before belong to a run that has been replaced already. -/
def reduceRuns : Bool → Str → Str
  | _, [] => []
  | inRun, c :: t =>
    if isWs c then (if inRun then reduceRuns true t else ' ' :: reduceRuns true t) else c :: reduceRuns false t

/-- `reduce`, private/mx/core/StringUtils.h 30-52. -/
def reduce (s : Str) : Str := reduceRuns false (trim s)

/-- `onlyAllow`, private/mx/core/StringUtils.h 55-68.  The code replaces the first character that is not allowed by `fill` and searches again from the start; as
`fill` consists of allowed characters at every call, this is one pass over the string. -/
def onlyAllow (fill : Str) (allowed : Char → Bool) (s : Str) : Str := s.flatMap (fun c => if allowed c then [c] else fill)

/-- `kNCNameAllowed`, private/mx/core/StringUtils.h 14. -/
def ncNameAllowed (c : Char) : Bool :=
  (chars "-.0123456789ABCDEFGHIJKLMNOPQRSTUVWXYZ_abcdefghijklmnopqrstuvwxyz").contains c

/-- `toStream( os, XsString )` with escape characters, private/mx/core/XsString.cpp 49-80. -/
def escapeXml (s : Str) : Str :=
  s.flatMap (fun c => match c with
    | '<' => chars "&lt;"
    | '>' => chars "&gt;"
    | '&' => chars "&amp;"
    | c => [c])

/-- The value of an `XsToken` made from a text, private/mx/core/XsToken.cpp 18-28. -/
def xsToken (s : Str) : Str := reduce s

/-- The value of an `XsID` made from a text, private/mx/core/XsID.cpp 26-38. -/
def xsID (s : Str) : Str :=
  match onlyAllow ['_'] ncNameAllowed s with
  | [] => chars "ID"
  | c :: t => if c.isDigit then chars "ID" ++ c :: t else c :: t

/-- The tokens read by `std::getline( iss, token, ',' )` from the rest of a text; the first argument holds the characters of the token
that has been begun (`none` directly after a separator and at the start: then the end of the text yields no token). -/
def getlinesFrom : Option Str → Str → List Str
  | none, [] => []
  | some token, [] => [token]
  | cur, c :: t =>
    if c = ',' then cur.getD [] :: getlinesFrom none t else getlinesFrom (some (cur.getD [] ++ [c])) t

/-- `while( std::getline( iss, token, ',' ) )`: the tokens of a text. -/
def getlines (s : Str) : List Str := getlinesFrom none s

/-- `CommaSeparatedText`: its values (each an `XsToken`), private/mx/core/CommaSeparatedText.h. -/
abbrev CommaText := List Str

/-- `CommaSeparatedText::parse`, private/mx/core/CommaSeparatedText.cpp 35-45. -/
def CommaText.parse (s : Str) : CommaText := (getlines s).map xsToken

/-- `toStream( CommaSeparatedText )`, private/mx/core/CommaSeparatedText.cpp 90-107. -/
def CommaText.toStream : CommaText → Str
  | [] => []
  | x :: xs => escapeXml x ++ xs.flatMap (fun y => ',' :: escapeXml y)

/-- `std::set<int>::insert` on the ascending list of elements. -/
def setInsert (x : Int) : List Int → List Int
  | [] => [x]
  | y :: ys => if x < y then x :: y :: ys else if x = y then y :: ys else y :: setInsert x ys

/-- `CommaSeparatedListOfPositiveIntegers`: `myValues` (ascending) and `myIsSpacingDesired`, private/mx/core/CommaSeparatedPositiveIntegers.h.
The constructor from a set leaves the flag uninitialised (CommaSeparatedPositiveIntegers.cpp 36-40); the model starts from an arbitrary flag. -/
structure CommaInts where
  values : List Int
  spacing : Bool
deriving Repr, DecidableEq

namespace CommaInts

/-- `setValues` with `copyPositives`, private/mx/core/CommaSeparatedPositiveIntegers.cpp 12-18, 73-76; the argument is a `std::set<int>` (ascending). -/
def setValues (c : CommaInts) (vs : List Int) : CommaInts := { c with values := vs.filter (fun v => decide (v > 0)) }

/-- Characters kept by `parse`, private/mx/core/CommaSeparatedPositiveIntegers.cpp 81. -/
def keep (c : Char) : Bool := (chars "1234567890,-").contains c

/-- One token, private/mx/core/CommaSeparatedPositiveIntegers.cpp 87-96: `int value = 1; ss >> value; if( value > 0 ) insert`. -/
def addToken (vs : List Int) (token : Str) : List Int :=
  if token.length > 0 then
    let v := (readInt 1 token).value
    if v > 0 then setInsert v vs else vs
  else vs

/-- `parse`, private/mx/core/CommaSeparatedPositiveIntegers.cpp 79-98. -/
def parse (c : CommaInts) (s : Str) : CommaInts :=
  { c with values := (getlines (onlyAllow [] keep s)).foldl addToken [] }

/-- `setUseSpaceBetweenItems`, private/mx/core/CommaSeparatedPositiveIntegers.cpp 101-104. -/
def setSpacing (c : CommaInts) (b : Bool) : CommaInts := { c with spacing := b }

/-- `toStream`, private/mx/core/CommaSeparatedPositiveIntegers.cpp 113-134. -/
def toStr (c : CommaInts) : Str :=
  match c.values with
  | [] => []
  | x :: xs => showInt x ++ xs.flatMap (fun y => ',' :: ((if c.spacing then [' '] else []) ++ showInt y))

/-- Operations of the public interface; the argument of `setValues` is a `std::set`. -/
inductive Op where
  | setValues (vs : List Int)
  | parse (s : Str)
  | setSpacing (b : Bool)

/-- One operation; `setValues` is given the elements of a set in any order and number. -/
def step (c : CommaInts) : Op → CommaInts
  | .setValues vs => c.setValues (vs.foldl (fun l v => setInsert v l) [])
  | .parse s => c.parse s
  | .setSpacing b => c.setSpacing b

end CommaInts

/-- `Decimal{}` and `Decimal( 0 )`. -/
def decimalZero : DecimalRange := ⟨.Decimal, ⟨false, 0, 0, 19, 6⟩⟩

/-- `FontSize` (`std::variant<Decimal, CssFontSize>`), private/mx/core/FontSize.h. -/
inductive FontSize where
  | decimal (d : DecimalRange)
  | css (c : Core.CssFontSize)
deriving Repr, DecidableEq

/-- `FontSize::parse`, private/mx/core/FontSize.cpp 94-109 (`none`: undefined behaviour of the decimal). -/
def FontSize.parse (f : FontSize) (s : Str) : Option (Bool × FontSize) :=
  match decimalZero.parse s with
  | none => none
  | some (true, d) => some (true, .decimal d)
  | some (false, _) =>
    match (tryParse s : Option Core.CssFontSize) with
    | some c => some (true, .css c)
    | none => some (false, f)

/-- `toStream( FontSize )`, private/mx/core/FontSize.cpp 118-129. -/
def FontSize.toStr : FontSize → Str
  | .decimal d => d.toStr
  | .css c => StringEnum.toStr c

/-- `YesNoNumber` (`std::variant<YesNo, Decimal>`), private/mx/core/YesNoNumber.h. -/
inductive YesNoNumber where
  | yesNo (y : Core.YesNo)
  | decimal (d : DecimalRange)
deriving Repr, DecidableEq

/-- `YesNoNumber::parse`, private/mx/core/YesNoNumber.cpp 94-109. -/
def YesNoNumber.parse (f : YesNoNumber) (s : Str) : Option (Bool × YesNoNumber) :=
  match (tryParse s : Option Core.YesNo) with
  | some y => some (true, .yesNo y)
  | none =>
    match decimalZero.parse s with
    | none => none
    | some (true, d) => some (true, .decimal d)
    | some (false, _) => some (false, f)

/-- `toStream( YesNoNumber )`, private/mx/core/YesNoNumber.cpp 118-129. -/
def YesNoNumber.toStr : YesNoNumber → Str
  | .yesNo y => StringEnum.toStr y
  | .decimal d => d.toStr

/-- `NumberOrNormal::impl`: `myDecimal`, `myIsNormal`, private/mx/core/NumberOrNormal.cpp 14-76. -/
structure NumberOrNormal where
  decimal : DecimalRange
  isNormal : Bool
deriving Repr, DecidableEq

/-- `NumberOrNormal::parse`, private/mx/core/NumberOrNormal.cpp 57-71. -/
def NumberOrNormal.parse (n : NumberOrNormal) (s : Str) : Option NumberOrNormal :=
  if s = chars "normal" then some ⟨decimalZero, true⟩
  else (n.decimal.parse s).map (fun r => ⟨r.2, false⟩)

/-- `toStream( NumberOrNormal )`, private/mx/core/NumberOrNormal.cpp 143-154. -/
def NumberOrNormal.toStr (n : NumberOrNormal) : Str := if n.isNormal then chars "normal" else n.decimal.toStr

/-- `PositiveIntegerOrEmpty::impl`: `myPositiveInteger`, `myIsEmpty`, private/mx/core/PositiveIntegerOrEmpty.cpp 14-76. -/
structure PositiveIntegerOrEmpty where
  number : IntRange
  isEmpty : Bool
deriving Repr, DecidableEq

/-- `PositiveIntegerOrEmpty::parse`, private/mx/core/PositiveIntegerOrEmpty.cpp 57-71. -/
def PositiveIntegerOrEmpty.parse (n : PositiveIntegerOrEmpty) (s : Str) : PositiveIntegerOrEmpty :=
  if s = [] then ⟨IntRange.ofKind .PositiveInteger 1, true⟩ else ⟨(n.number.parse s).2, false⟩

/-- `toStream( PositiveIntegerOrEmpty )`, private/mx/core/PositiveIntegerOrEmpty.cpp 145-156. -/
def PositiveIntegerOrEmpty.toStr (n : PositiveIntegerOrEmpty) : Str := if n.isEmpty then [] else n.number.toStr

/-- `std::atoi`: leading white space, sign, digits; no digits give 0; a value that is not an `int` is undefined behaviour. -/
def atoi (s : Str) : Option Int :=
  let (neg, u) := readSign (skipWs s)
  let n : Int := Nat.ofDigitChars 10 (u.takeWhile Char.isDigit) 0
  chk (if neg then -n else n)

/-- `utility::stringToInt`, private/mx/utility/StringToInt.h 15-27: success and the variable afterwards. -/
def stringToInt (s : Str) (old : Int) : Option (Bool × Int) :=
  (atoi s).map (fun t => if showInt t = s then (true, t) else (false, old))

/-- The marker of misc data. -/
def miscMarker : Str := chars "##misc-data##"

/-- Commas become underscores, private/mx/impl/NoteWriter.cpp 455-460. -/
def uncomma (s : Str) : Str := s.map (fun c => if c = ',' then '_' else c)

/-- `NoteWriter::setMiscData`, private/mx/impl/NoteWriter.cpp 436-472: the `font-family` of the footnote (`none`: no footnote). -/
def setMiscData : List Str → Option CommaText
  | [] => none
  | s :: rest => some (xsToken (miscMarker ++ uncomma s) :: rest.map (fun t => xsToken (uncomma t)))

/-- `NoteFunctions::parseMiscData`, private/mx/impl/NoteFunctions.cpp 350-396, for a footnote without text and its `font-family` (`none`: absent). -/
def parseMiscData : Option CommaText → List Str
  | none => []
  | some [] => []
  | some (first :: rest) => if first.take 13 ≠ miscMarker then [] else first.drop 13 :: rest

/-- `ProcessingInstruction`: name and data, private/mx/core/ProcessingInstruction.cpp 18-66. -/
structure ProcessingInstruction where
  name : Str
  data : Str
deriving Repr, DecidableEq

/-- `setName`, private/mx/core/ProcessingInstruction.cpp 45-51. -/
def ProcessingInstruction.setName (p : ProcessingInstruction) (n : Str) : ProcessingInstruction := if n = [] then p else { p with name := n }

/-- The constructor, private/mx/core/ProcessingInstruction.cpp 18-31. -/
def ProcessingInstruction.make (name data : Str) : ProcessingInstruction :=
  { ProcessingInstruction.setName ⟨chars "default-name", []⟩ name with data := data }

/-- `toStream`, private/mx/core/ProcessingInstruction.cpp 66-74. -/
def ProcessingInstruction.toStr (p : ProcessingInstruction) : Str := chars "<?" ++ p.name ++ [' '] ++ p.data ++ chars "?>"

end Mx
