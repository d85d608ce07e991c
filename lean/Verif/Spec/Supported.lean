import Verif.Spec.Reader

/-
The part of the schema that documents loaded from other programs may use without anything being lost.
-/
namespace Mx.Spec
open Re Schema

/-- The content model of a declaration of the schema. -/
def schemaModel (d : Nat) : Option Re := (Schema.decls.find? fun p => Nat.beq p.1 d).map (·.2)

/-- Nothing at all (not even the empty list) matches. -/
def Re.none : Re := .alts []

/-- The ornaments. -/
def ornamentNames : Re := .alts [.sym (nm! "trill-mark"), .sym (nm! "turn"), .sym (nm! "delayed-turn"), .sym (nm! "inverted-turn"),
  .sym (nm! "delayed-inverted-turn"), .sym (nm! "vertical-turn"), .sym (nm! "shake"), .sym (nm! "wavy-line"), .sym (nm! "mordent"),
  .sym (nm! "inverted-mordent"), .sym (nm! "schleifer"), .sym (nm! "tremolo"), .sym (nm! "other-ornament")]

/-- The dynamics. -/
def dynamicsNames : Re := .alts [.sym (nm! "p"), .sym (nm! "pp"), .sym (nm! "ppp"), .sym (nm! "pppp"), .sym (nm! "ppppp"), .sym (nm! "pppppp"), .sym (nm! "f"),
  .sym (nm! "ff"), .sym (nm! "fff"), .sym (nm! "ffff"), .sym (nm! "fffff"), .sym (nm! "ffffff"), .sym (nm! "mp"), .sym (nm! "mf"), .sym (nm! "sf"),
  .sym (nm! "sfp"), .sym (nm! "sfpp"), .sym (nm! "fp"), .sym (nm! "rf"), .sym (nm! "rfz"), .sym (nm! "sfz"), .sym (nm! "sffz"), .sym (nm! "fz"),
  .sym (nm! "other-dynamics")]

/-- The seventeen elements whose content models are not supported in full, and what is supported of them. -/
def narrowed : List (Nat × Re) := [
  -- these three must not occur
  (nm! "play", .none),
  (nm! "percussion", .none),
  (nm! "notehead-text", .none),
  -- no `circular-arrow`
  (nm! "arrow", .seqs [.sym (nm! "arrow-direction"), .opt (.sym (nm! "arrow-style"))]),
  -- not empty
  (nm! "beat-repeat", g_slash),
  (nm! "slash", g_slash),
  -- not without height and width
  (nm! "page-layout", .seqs [.sym (nm! "page-height"), .sym (nm! "page-width"), .rep 0 (some 2) (.sym (nm! "page-margins"))]),
  -- exactly one
  (nm! "dynamics", dynamicsNames),
  -- only one time signature
  (nm! "interchangeable", .seqs [.opt (.sym (nm! "time-relation")), g_time_signature]),
  -- not empty
  (nm! "key", .seqs [.alts [g_traditional_key, .plus g_non_traditional_key], .star (.sym (nm! "key-octave"))]),
  -- no footnote or level, no `syllabic` after an `elision`, no end of a line or a paragraph after `extend`, `laughing` or `humming` alone
  (nm! "lyric", .alts [.seqs [.opt (.sym (nm! "syllabic")), .sym (nm! "text"), .star (.seqs [.opt (.sym (nm! "elision")), .sym (nm! "text")]), .opt (.sym (nm! "extend")),
      .opt (.sym (nm! "end-line")), .opt (.sym (nm! "end-paragraph"))], .sym (nm! "extend"), .sym (nm! "laughing"), .sym (nm! "humming")]),
  -- only one note after the relation
  (nm! "metronome", .alts [.seqs [g_beat_unit, .alts [.sym (nm! "per-minute"), g_beat_unit]], .seqs [.plus (.sym (nm! "metronome-note")),
      .opt (.seqs [.sym (nm! "metronome-relation"), .sym (nm! "metronome-note")])]]),
  -- no type of the notes
  (nm! "metronome-tuplet", .seqs [.sym (nm! "actual-notes"), .sym (nm! "normal-notes")]),
  -- no `other-notation`
  (nm! "notations", .seqs [g_editorial, .star (.alts [.sym (nm! "tied"), .sym (nm! "slur"), .sym (nm! "tuplet"), .sym (nm! "glissando"), .sym (nm! "slide"),
      .sym (nm! "ornaments"), .sym (nm! "technical"), .sym (nm! "articulations"), .sym (nm! "dynamics"), .sym (nm! "fermata"), .sym (nm! "arpeggiate"),
      .sym (nm! "non-arpeggiate"), .sym (nm! "accidental-mark")])]),
  -- the accidental marks after all ornaments
  (nm! "ornaments", .opt (.seqs [.plus ornamentNames, .star (.sym (nm! "accidental-mark"))])),
  -- not repeated, no device without an instrument, no `play`, no `offset`
  (nm! "sound", .opt (.seqs [.opt (.sym (nm! "midi-device")), .sym (nm! "midi-instrument")])),
  -- no links and bookmarks between the words
  (nm! "credit", .seqs [.star (.sym (nm! "credit-type")), .star (.sym (nm! "link")), .star (.sym (nm! "bookmark")), .alts [.sym (nm! "credit-image"), .plus (.sym (nm! "credit-words"))]])]

/-- What is supported of the elements of a declaration: for all but seventeen, all the schema allows. -/
def supportedModel (d : Nat) : Option Re :=
  match narrowed.find? fun p => Nat.beq p.1 d with
  | some p => some p.2
  | .none => schemaModel d

/-- An element, valid as an element of the declaration `d` (see `ValidFor`), all of which is supported. (The schema gives `chord` neither attributes nor a value.) -/
inductive Supported : Nat → Content.Xml → Prop where
  | mk (d : Nat) (data : Str) (kids : List Content.Xml) (r : Re) (ds : List Nat) :
      supportedModel d = some r → ds.length = kids.length → r.Matches ds → (∀ p ∈ ds.zip kids, Supported p.1 p.2) →
      (d = nm! "chord" → data = []) → Supported d (.elem (Schema.declName d) data kids)

/-- A new object of the class reads the element without any complaint, and then writes the same element. -/
def Kept (c : Content.Cls) (x : Content.Xml) : Prop :=
  ∃ n, (x.child Content.prog).read (Content.make (.comp c)) = (n, true) ∧ n.kind = .comp c ∧ n.xml = x

/-- The objects of the class complain about the element. -/
def Refused (c : Content.Cls) (x : Content.Xml) : Prop := ((x.child Content.prog).read (Content.make (.comp c))).2 = false

end Mx.Spec
