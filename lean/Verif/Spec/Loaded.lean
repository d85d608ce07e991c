import Verif.Spec.Supported

/-
What may be written after loading any document, valid or not.
-/
namespace Mx.Spec
open Re Schema

/-- The six elements for which a document that was not valid may leave something behind that is not valid either, and what can be written for them.
(A `page-layout` always has a height and a width; the accidental marks come after all the ornaments.) -/
def widened : List (Nat × Re) := [
  -- any number of fermatas
  (nm! "barline", .seqs [.opt (.sym (nm! "bar-style")), g_editorial, .opt (.sym (nm! "wavy-line")), .opt (.sym (nm! "segno")), .opt (.sym (nm! "coda")),
    .star (.sym (nm! "fermata")), .opt (.sym (nm! "ending")), .opt (.sym (nm! "repeat"))]),
  -- any number of beams
  (nm! "note", .seqs [.alts [.seqs [.sym (nm! "grace"), g_full_note, .rep 0 (some 2) (.sym (nm! "tie"))], .seqs [.sym (nm! "cue"), g_full_note, g_duration],
    .seqs [g_full_note, g_duration, .rep 0 (some 2) (.sym (nm! "tie"))]], .opt (.sym (nm! "instrument")), g_editorial_voice, .opt (.sym (nm! "type")),
    .star (.sym (nm! "dot")), .opt (.sym (nm! "accidental")), .opt (.sym (nm! "time-modification")), .opt (.sym (nm! "stem")),
    .opt (.sym (nm! "notehead")), .opt (.sym (nm! "notehead-text")), .opt g_staff, .star (.sym (nm! "beam")), .star (.sym (nm! "notations")),
    .star (.sym (nm! "lyric")), .opt (.sym (nm! "play"))]),
  -- any number of margins
  (nm! "page-layout", .seqs [.sym (nm! "page-height"), .sym (nm! "page-width"), .star (.sym (nm! "page-margins"))]),
  -- an `interchangeable` after each signature
  (nm! "time", .alts [.plus (.seqs [g_time_signature, .opt (.sym (nm! "interchangeable"))]), .sym (nm! "senza-misura")]),
  -- accidental marks without an ornament
  (nm! "ornaments", .seqs [.star ornamentNames, .star (.sym (nm! "accidental-mark"))]),
  -- `stick-type` and `stick-material` outside of a `stick` (but see `C67_refused`: no `percussion` is ever loaded)
  (nm! "percussion", .alts [ct_percussion, .sym (nm! "stick-type"), .sym (nm! "stick-material")])]

/-- The content model of a declaration: that of the schema for all others. -/
def wideModel (d : Nat) : Option Re :=
  match widened.find? fun p => Nat.beq p.1 d with
  | some p => some p.2
  | .none => schemaModel d

/-- Like `ValidFor`, with these content models. -/
inductive NearlyValid : Nat → Content.Xml → Prop where
  | mk (d : Nat) (data : Str) (kids : List Content.Xml) (r : Re) (ds : List Nat) :
      wideModel d = some r → ds.length = kids.length → r.Matches ds → (∀ p ∈ ds.zip kids, NearlyValid p.1 p.2) →
      NearlyValid d (.elem (Schema.declName d) data kids)

/-- What a new object of the class writes after it has read the element. -/
def readAndWrite (c : Content.Cls) (x : Content.Xml) : Content.Xml := ((x.child Content.prog).read (Content.make (.comp c))).1.xml

end Mx.Spec
