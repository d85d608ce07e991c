import Verif.Spec.Loaded

/-
Elements with names that the schema does not know at their place.
-/
namespace Mx.Spec
open Content

/-- The declarations that occur in an expression. -/
def Re.syms : Re → List Nat
  | .any => []
  | .eps => []
  | .sym t => [t]
  | .seq a b => a.syms ++ b.syms
  | .alt a b => a.syms ++ b.syms
  | .rep _ _ r => r.syms

/-- The names of the children that the schema allows within the elements of the class, somewhere. -/
def allowedNames (c : Cls) : List Nat := ((schemaModel (classDecl c)).map Re.syms).getD [] |>.map Schema.declName

/-- The name of an element. -/
def xmlName : Xml → Nat
  | .elem n _ _ => n

/-- The children. -/
def childrenOf : Xml → List Xml
  | .elem _ _ ks => ks

/-- The element without those of its children whose names are not among the given ones. -/
def onlyNamed (names : List Nat) : Xml → Xml
  | .elem n d ks => .elem n d (ks.filter fun x => names.any (Nat.beq (xmlName x)))

/-- The classes whose objects are known to complain about every child of an unknown name. -/
def complaining : List Cls := [.Articulations, .Encoding, .GroupAbbreviationDisplay, .GroupNameDisplay, .MeasureStyle, .Notations, .Note, .PartAbbreviationDisplay, .PartNameDisplay,
  .PartwisePart, .Technical, .TimewiseMeasure]

/-- The classes whose objects pass over the children of unknown names without a word. -/
def ignoring : List Cls := [.Accord, .AccordionRegistration, .Bass, .Bend, .Clef, .Degree, .Figure, .FrameNote, .Harmonic, .Hole, .Interchangeable, .MeasureLayout, .MidiInstrument,
  .PageMargins, .PartwiseMeasure, .PedalTuning, .Pitch, .Root, .Scaling, .ScoreInstrument, .Sound, .StaffLayout, .StaffTuning, .Stick, .SystemDividers, .SystemLayout, .SystemMargins,
  .TimeModification, .TimewisePart, .Transpose, .Tuplet, .VirtualInstrument, .Work]

/-- Children whose failures are failures of the element they are in: the class of the element, the name of the child, the class of the child. -/
def passages : List (Cls × Nat × Cls) := [
  (.ScorePartwise, nm! "part", .PartwisePart),
  (.PartwisePart, nm! "measure", .PartwiseMeasure),
  (.PartwiseMeasure, nm! "note", .Note),
  (.ScoreTimewise, nm! "measure", .TimewiseMeasure),
  (.TimewiseMeasure, nm! "part", .TimewisePart),
  (.TimewisePart, nm! "note", .Note),
  (.Note, nm! "notations", .Notations),
  (.Notations, nm! "technical", .Technical),
  (.Notations, nm! "articulations", .Articulations)]

/-- Somewhere on these ways there is an element with a child of an unknown name. -/
inductive Blocked : Cls → Xml → Prop where
  | here {c : Cls} {x y : Xml} : c ∈ complaining → y ∈ childrenOf x → xmlName y ∉ allowedNames c → ¬ (c = .Notations ∧ xmlName y = nm! "other-notations") → Blocked c x
  | inside {c c' : Cls} {x y : Xml} : (c, xmlName y, c') ∈ passages → y ∈ childrenOf x → Blocked c' y → Blocked c x

end Mx.Spec
