import Verif.Model.Directions
import Verif.Spec.Decimal
import Verif.Spec.Properties
import Verif.Spec.Tokens

/-
What a `<direction>` of a document says, apart from its layout (positions, fonts, lines, colours, spreads) and its time (C93).

Only the data types, and the texts of enumerations (C23), are shared with the model.
-/
namespace Spec
open Mx Mx.Directions

/-- One thing that a direction says. -/
inductive Saying where
  | dynamics (d : Core.DynamicsEnum)
  | otherDynamics (text : Str)
  /-- crescendo, diminuendo, stop or continue -/
  | wedge (t : Core.WedgeType)
  /-- up or down; the size is 8 for one octave, 15 for two -/
  | octave (t : Core.UpDownStopContinue) (size : Int)
  | octaveStop
  | pedal (t : Core.StartStopChangeContinue)
  /-- a note with dots, and how many of them there are in a minute -/
  | tempo (unit : Core.NoteTypeValue) (dots : Nat) (perMinute : Int)
  | words (text : Str)
deriving DecidableEq

/-- Words. -/
def Saying.isWords : Saying → Bool
  | .words _ => true
  | _ => false

/-- A `<dynamics>` element (with one child). -/
def DynamicsSays (x : DynamicsXml) : Saying → Prop
  | .dynamics d => x.child = StringEnum.toStr d
  | .otherDynamics t => x.child = chars "other-dynamics" ∧ x.text = t
  | _ => False

/-- The number that tells simultaneous wedges or octave shifts apart: it is 1, which is the default. -/
def NumberOne (x : Option Str) : Prop := x = none ∨ ∃ t, x = some t ∧ IntegerText t 1

/-- What a `<direction-type>` says. -/
def TypeSays : DirectionTypeXml → List Saying → Prop
  | .dynamics l, ss => List.Forall₂ DynamicsSays l ss
  | .words l, ss => ss = l.map (fun w => .words w.text)
  | .wedge w, ss => ∃ t, ss = [.wedge t] ∧ w.type = StringEnum.toStr t ∧ NumberOne w.number
  | .octaveShift s, ss => NumberOne s.number ∧
      ((ss = [.octaveStop] ∧ s.type = chars "stop") ∨
       ∃ t size, ss = [.octave t size] ∧ t ≠ .stop ∧ s.type = StringEnum.toStr t ∧ ((s.size = none ∧ size = 8) ∨ ∃ x, s.size = some x ∧ IntegerText x size))
  | .pedal p, ss => ∃ t, ss = [.pedal t] ∧ p.type = StringEnum.toStr t
  | .metronome (.perMinute unit dots text), ss => ∃ u v, ss = [.tempo u dots v] ∧ unit = StringEnum.toStr u ∧ CanonicalInteger text v
  | _, _ => False

/-- What several of them say, one after the other. -/
def TypesSay (ts : List DirectionTypeXml) (said : List Saying) : Prop := ∃ sss, List.Forall₂ TypeSays ts sss ∧ sss.flatten = said

/-- Something that the program keeps: no wedges that continue, octave shifts by one or two octaves, pedals that start or stop, numbers of beats within `int`; dynamics with a text of their own are not called like one of the others. -/
def SayingKept : Saying → Prop
  | .dynamics d => d ≠ .otherDynamics
  | .otherDynamics t => t ≠ [] ∧ ∀ d : Core.DynamicsEnum, t ≠ StringEnum.toStr d
  | .wedge t => t ≠ .continue_
  | .octave t size => (t = .up ∨ t = .down) ∧ (size = 8 ∨ size = 15)
  | .octaveStop => True
  | .pedal t => t = .start ∨ t = .stop
  | .tempo _ _ v => INT_MIN ≤ v ∧ v ≤ INT_MAX
  | .words _ => True

/-- The attribute `placement`. -/
def PlacementText (x : Option Str) : Prop := x = none ∨ x = some (chars "above") ∨ x = some (chars "below")

end Spec
