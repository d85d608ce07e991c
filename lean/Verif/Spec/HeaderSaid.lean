import Verif.Model.HeaderThrough
import Verif.Spec.ScoreHeader

/-
What the elements before the part list of a document say: titles, who wrote it, rights, encoding and texts on pages.

Only the data types are shared with the model.
-/
open Spec
namespace Mx.Spec

/-- A type (with single spaces between its words) and a text. -/
abbrev Typed := Str × Str

/-- What an item of the list of supported things says: yes or no, and the words of the names of the element, attribute and value. -/
abbrev SupportSaid := Str × List Str × List Str × List Str

structure HeaderSaid where
  /-- number and title of the work, number and title of the movement; missing is the same as empty -/
  titles : Str × Str × Str × Str
  /-- creators and rights, in order -/
  creators : List Typed
  rights : List Typed
  /-- the kinds of elements of the encoding, in order -/
  encoders : List Str
  dates : List Str
  descriptions : List Str
  software : List Str
  supports : List SupportSaid
  /-- the words of the name, and the value -/
  miscellaneous : List (List Str × Str)
  /-- page, types and text of the credits; `none`: an image -/
  credits : List (Option (Option Str × List Str × Str))
deriving DecidableEq

def typedSaid (c : TypedText) : Typed := (creatorType c, c.text)

def encodersOf (l : List EncodingXml) : List Str := l.filterMap fun | .encoder t => some t | _ => none
def datesOf (l : List EncodingXml) : List Str := l.filterMap fun | .date t => some t | _ => none
def descriptionsOf (l : List EncodingXml) : List Str := l.filterMap fun | .description t => some t | _ => none
def softwareOf (l : List EncodingXml) : List Str := l.filterMap fun | .software t => some t | _ => none
def supportsOf (l : List EncodingXml) : List SupportSaid := l.filterMap fun | .supports y e a v => some (y, words e, words (a.getD []), words (v.getD [])) | _ => none

def creditSaid (c : CreditXml) : Option (Option Str × List Str × Str) := if c.isWords then some (c.page, c.types, c.text) else none

/-- What the elements say. -/
def headerSaid (x : HeaderXml) : HeaderSaid :=
  let i := x.identification.getD {}
  { titles := (x.workNumber.getD [], x.workTitle.getD [], x.movementNumber.getD [], x.movementTitle.getD [])
    creators := i.creators.map typedSaid
    rights := i.rights.map typedSaid
    encoders := encodersOf (i.encoding.getD []), dates := datesOf (i.encoding.getD []), descriptions := descriptionsOf (i.encoding.getD [])
    software := softwareOf (i.encoding.getD []), supports := supportsOf (i.encoding.getD [])
    miscellaneous := (i.miscellaneous.getD []).map fun m => (words m.1, m.2)
    credits := x.credits.map creditSaid }

/-- One text, or none. -/
def oneText (s : Str) : List Str := if s = [] then [] else [s]

/-- One text of a type, or none. -/
def oneTyped (type s : Str) : List Typed := if s = [] then [] else [(type, s)]

/-- What the program keeps: a composer, a lyricist, a copyright, an encoder, a day of the calendar and a description, at most one of each; all titles, software,
supported things and miscellaneous fields; credits that are words, on pages with a number, of at most one type. -/
structure HeaderKept (a : HeaderSaid) : Prop where
  creators : ∃ c l, a.creators = oneTyped (chars "composer") c ++ oneTyped (chars "lyricist") l
  rights : ∃ r, a.rights = oneTyped (chars "copyright") r
  encoders : ∃ t, a.encoders = oneText t
  descriptions : ∃ t, a.descriptions = oneText t
  dates : a.dates = [] ∨ ∃ d : Date, ValidDate d.year d.month d.day ∧ a.dates = [d.toStr]
  supports : ∀ s ∈ a.supports, s.1 = chars "yes" ∨ s.1 = chars "no"
  credits : ∀ c ∈ a.credits, ∃ p d t, c = some (p, oneText d, t) ∧ ∀ s ∈ p, ∃ n : Int, 1 ≤ n ∧ n ≤ INT_MAX ∧ CanonicalInteger s n

end Mx.Spec
