import Verif.Model.Elements
import Verif.Spec.SchemaAttributes

/-
The exceptions to C54, C55: attributes that are lost, and differences between the attribute structs and the schema.  Each of them is shown to be real in
Verif/Props/AttributeProps.lean.
-/
namespace Mx

/-- Members that are written in a way that cannot be read back: `dash-length` of `EmptyLineAttributes`; `bezier-offset2`, `bezier-x2`, `bezier-y2` of `TiedAttributes`. -/
def AttrStruct.lost : AttrStruct → List Nat
  | .EmptyLineAttributes => [2]
  | .TiedAttributes => [12, 15, 16]
  | _ => []

/-- The structs of links, which write `xlink:…` and read the names without the prefix. -/
def AttrStruct.isLink : AttrStruct → Bool
  | .LinkAttributes | .OpusAttributes => true
  | _ => false

/-- An attribute that a class has. -/
structure Declared where
  name : List Char
  type : AttrType
  required : Bool

/-- The attributes that an element class writes. -/
def ElementClass.declared (e : ElementClass) : List Declared := match e.attributes with
  | none => []
  | some s => s.cls.writes.filterMap (fun w => s.cls.members[w.member]?.map (fun m => ⟨w.name, m.type, m.required⟩))

/-- The schema gives the element `element` the attribute `x`. -/
def Spec.HasAttribute (element : List Char) (x : Spec.SchemaAttr) : Prop := ∃ attributes, (element, attributes) ∈ Spec.schemaElements ∧ x ∈ attributes

/-- The elements with an attribute `print-object` that the schema does not know. -/
def extraPrintObject : List (List Char) := [chars "coda", chars "damp", chars "damp-all", chars "eyeglasses", chars "segno"]

/-- Attributes of the schema that the classes do not have: the elements, and the names. -/
def missingAttributes : List (List (List Char) × List (List Char)) := [
  ([chars "credit-words"], [chars "dir"]),
  ([chars "elision", chars "text"], [chars "color", chars "dir"]),
  ([chars "credit-image", chars "image"], [chars "valign"]),
  ([chars "accidental-text", chars "display-text", chars "footnote", chars "rehearsal", chars "words"], [chars "color", chars "dir", chars "valign"]),
  ([chars "kind", chars "measure-numbering", chars "other-direction", chars "pedal", chars "principal-voice", chars "string-mute"], [chars "color",
    chars "valign"]),
  ([chars "accent", chars "accidental", chars "accidental-mark", chars "arpeggiate", chars "barre", chars "bass-alter", chars "bass-step", chars "beam",
    chars "breath-mark", chars "caesura", chars "dashes", chars "degree-alter", chars "degree-type", chars "degree-value", chars
    "delayed-inverted-turn", chars "delayed-turn", chars "detached-legato", chars "directive", chars "doit", chars "dot", chars "double-tongue", chars
    "down-bow", chars "ending", chars "extend", chars "falloff", chars "figure-number", chars "fingering", chars "fingernails", chars "fret", chars
    "function", chars "glissando", chars "group-abbreviation", chars "group-name", chars "group-symbol", chars "hammer-on", chars "handbell", chars
    "inversion", chars "inverted-turn", chars "non-arpeggiate", chars "octave-shift", chars "open-string", chars "other-articulation", chars
    "other-notation", chars "other-ornament", chars "other-technical", chars "part-abbreviation", chars "part-symbol", chars "plop", chars "pluck",
    chars "prefix", chars "pull-off", chars "root-alter", chars "root-step", chars "schleifer", chars "scoop", chars "shake", chars "slide", chars
    "snap-pizzicato", chars "spiccato", chars "staccatissimo", chars "staccato", chars "stem", chars "stopped", chars "stress", chars "suffix", chars
    "tap", chars "tenuto", chars "thumb-position", chars "tremolo", chars "trill-mark", chars "triple-tongue", chars "tuplet-dot", chars
    "tuplet-number", chars "tuplet-type", chars "turn", chars "unstress", chars "up-bow", chars "vertical-turn", chars "wavy-line", chars "wedge",
    chars "with-bar"], [chars "color"])]

end Mx
