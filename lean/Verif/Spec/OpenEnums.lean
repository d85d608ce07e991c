import Verif.Spec.SchemaEnums
import Verif.Model.OpenEnums

/-
What a value of one of the open text types of MusicXML (dynamics, distance type, line width type, mode) is: one of the named values, or a text of the
user's own.
-/
namespace Mx.Spec

/-- The name in the schema for "a text of the user's own", which is not itself a value. -/
def otherName : OpenName → Str
  | .DynamicsValue => chars "other-dynamics"
  | _ => chars "other"

inductive OpenText (o : OpenName) where
  | named (e : o.enumName.Carrier)
  | own (s : Str)
deriving DecidableEq

/-- The text that is written for a value. -/
def OpenText.Writes {o : OpenName} : OpenText o → Str → Prop
  | .named e, s => (e, s) ∈ schemaRows o.enumName
  | .own t, s => s = t

/-- The value that a text denotes. -/
def OpenText.Denotes {o : OpenName} (s : Str) : OpenText o → Prop
  | .named e => (e, s) ∈ schemaRows o.enumName ∧ s ≠ otherName o
  | .own t => t = s ∧ ∀ e, (e, s) ∉ schemaRows o.enumName

/-- The effect of setting the value: a text sets what it denotes; a named value sets itself; choosing "own text" keeps the own text, if there is one. -/
inductive OpenText.Step {o : OpenName} : OpenText o → OpenValue.Op o.enumName.Carrier → OpenText o → Prop
  | text {v w s} (h : OpenText.Denotes s w) : OpenText.Step v (.setText s) w
  | named {v e s} (h : (e, s) ∈ schemaRows o.enumName) (hs : s ≠ otherName o) : OpenText.Step v (.setEnum e) (.named e)
  | ownAgain {t e} (h : (e, otherName o) ∈ schemaRows o.enumName) : OpenText.Step (.own t) (.setEnum e) (.own t)
  | ownNew {d e} (h : (e, otherName o) ∈ schemaRows o.enumName) : OpenText.Step (.named d) (.setEnum e) (.own [])

/-- A history of calls. -/
inductive OpenText.Steps {o : OpenName} : OpenText o → List (OpenValue.Op o.enumName.Carrier) → OpenText o → Prop
  | nil {v} : OpenText.Steps v [] v
  | cons {u v w op ops} (h : OpenText.Step u op v) (t : OpenText.Steps v ops w) : OpenText.Steps u (op :: ops) w

end Mx.Spec
