import Verif.Model.DirectionsThrough
import Verif.Proofs.DirectionSaid

/-!
# C99: the directions of a file keep what they say

A `<direction>` of a document that says something (dynamics, wedges, octave shifts, pedals, a metronome mark, words), when the document is loaded and saved.
-/
namespace Mx.Props
open Mx.Directions _root_.Spec

/-- It comes out as one `<direction>` that says the same things; the words stay in their order, and so does where it is put (above or below). -/
theorem C99_direction_partial (cursorTick : Int) (staffSaid : Bool) (staffIndex cursorTick' : Int) (x : DirectionXml) (said : List Saying) (hs : TypesSay x.types said) (hn : said ≠ []) (hk : ∀ s ∈ said, SayingKept s)
    (hp : PlacementText x.placement) (l : List ElementXml) (h : directionThrough cursorTick staffSaid staffIndex cursorTick' x = .ok l) :
    ∃ y said', l = [.direction y] ∧ TypesSay y.types said' ∧ said'.Perm said ∧ said'.filter Saying.isWords = said.filter Saying.isWords ∧ y.placement = x.placement := by
  obtain ⟨d, h1, h2⟩ := bind_ok' h
  exact direction_said hs hk hn hp h1 h2

/-- The same for any number of times. -/
theorem C99_for_ever_partial (n : Nat) (x y : DirectionXml) (said : List Saying) (hs : TypesSay x.types said) (hn : said ≠ []) (hk : ∀ s ∈ said, SayingKept s) (hp : PlacementText x.placement)
    (h : DirectionPasses n x y) : ∃ said', TypesSay y.types said' ∧ said'.Perm said ∧ said'.filter Saying.isWords = said.filter Saying.isWords ∧ y.placement = x.placement := by
  induction h generalizing said with
  | zero x => exact ⟨said, hs, .refl _, rfl, rfl⟩
  | succ c b s c' h _ ih =>
    obtain ⟨y, said1, he, k1, k2, k3, k4⟩ := C99_direction_partial c b s c' _ said hs hn hk hp _ h
    cases he
    obtain ⟨said2, j1, j2, j3, j4⟩ := ih said1 k1 (fun h0 => hn (by rw [h0] at k2; simpa using k2.symm)) (fun s hs => hk s (k2.mem_iff.mp hs)) (by rw [k4]; exact hp)
    exact ⟨said2, j1, j2.trans k2, j3.trans k3, j4.trans k4⟩

/-- "Allegro", ♩. = 120, p and pocof, a crescendo, an octave higher, and the pedal. -/
def exDirection : DirectionXml := {
  placement := some (chars "below")
  types := [.words [{ text := chars "Allegro" }, { text := chars "molto" }], .metronome (.perMinute (chars "quarter") 1 (chars "120")), .dynamics [{ child := chars "p" }, { child := chars "other-dynamics", text := chars "pocof" }],
    .wedge { type := chars "crescendo" }, .octaveShift { type := chars "up" }, .pedal { type := chars "start" }] }

theorem exDirection_says : TypesSay exDirection.types
    [.words (chars "Allegro"), .words (chars "molto"), .tempo .quarter 1 120, .dynamics .p, .otherDynamics (chars "pocof"), .wedge .crescendo, .octave .up 8, .pedal .start] := by
  refine ⟨[[.words (chars "Allegro"), .words (chars "molto")], [.tempo .quarter 1 120], [.dynamics .p, .otherDynamics (chars "pocof")], [.wedge .crescendo], [.octave .up 8], [.pedal .start]], ?_, rfl⟩
  refine .cons rfl (.cons ⟨.quarter, 120, rfl, rfl, (canonical_iff _ _).mpr (by decide +kernel)⟩ (.cons (.cons rfl (.cons ⟨rfl, rfl⟩ .nil)) (.cons ⟨_, rfl, rfl, .inl rfl⟩ (.cons ⟨.inl rfl, .inr ⟨_, _, rfl, by decide, rfl, .inl ⟨rfl, rfl⟩⟩⟩
    (.cons ⟨_, rfl, rfl⟩ .nil)))))

theorem exDirection_kept : ∀ s ∈ [Saying.words (chars "Allegro"), .words (chars "molto"), .tempo .quarter 1 120, .dynamics .p, .otherDynamics (chars "pocof"), .wedge .crescendo, .octave .up 8, .pedal .start], SayingKept s := by
  intro s hs
  simp only [List.mem_cons, List.not_mem_nil, or_false] at hs
  rcases hs with rfl | rfl | rfl | rfl | rfl | rfl | rfl | rfl
  · trivial
  · trivial
  · exact ⟨by decide, by decide⟩
  · exact (by decide : Core.DynamicsEnum.p ≠ .otherDynamics)
  · exact ⟨by decide, by intro d; cases d <;> decide +kernel⟩
  · exact (by decide : Core.WedgeType.crescendo ≠ .continue_)
  · exact ⟨.inl rfl, .inl rfl⟩
  · exact .inl rfl

/-- The texts of a `<direction-type>`. -/
def exTexts : DirectionTypeXml → List Str
  | .words l => l.map (·.text)
  | .metronome (.perMinute u _ t) => [u, t]
  | .dynamics l => l.map (·.child)
  | .wedge w => [w.type]
  | .octaveShift s => [s.type]
  | .pedal p => [p.type]
  | _ => []

/-- The order changes: dynamics and pedals first, then wedges, octave shifts, the tempo and the words. -/
example : (directionThrough 7 false 1 7 exDirection).map (fun l => l.map (fun e => match e with
    | .direction y => y.types.map exTexts
    | .harmony _ => [])) =
      .ok [[[chars "p"], [chars "other-dynamics"], [chars "start"], [chars "crescendo"], [chars "up"], [chars "quarter", chars "120"], [chars "Allegro", chars "molto"]]] := by
  decide +kernel

/-! ### What is not kept -/

/-- Two wedges at the same time, told apart by their numbers, come out without numbers. -/
theorem C99_wedge_numbers : directionThrough 0 false 0 0 { types := [.wedge { type := chars "crescendo", number := some (chars "1") }, .wedge { type := chars "diminuendo", number := some (chars "2") }] } =
    .ok [.direction { types := [.wedge { type := chars "crescendo" }, .wedge { type := chars "diminuendo" }] }] := by decide +kernel

/-- A wedge that continues (in the next system) comes out as the start of a crescendo, even if it was a diminuendo. -/
theorem C99_wedge_continue : directionThrough 0 false 0 0 { types := [.wedge { type := chars "continue" }] } = .ok [.direction { types := [.wedge { type := chars "crescendo" }] }] := by decide +kernel

/-- An octave shift by three octaves comes out as one by two octaves. -/
theorem C99_three_octaves : directionThrough 0 false 0 0 { types := [.octaveShift { type := chars "up", size := some (chars "22") }] } = .ok [.direction { types := [.octaveShift { type := chars "up", size := some (chars "15") }] }] := by
  decide +kernel

/-- Directions with a segno, a coda, a rehearsal mark or a change of the pedal only are gone. -/
theorem C99_gone : directionThrough 0 false 0 0 { types := [.segno [{}]] } = .ok [] ∧ directionThrough 0 false 0 0 { types := [.coda [{}]] } = .ok [] ∧
    directionThrough 0 false 0 0 { types := [.rehearsal [{ text := chars "A" }]] } = .ok [] ∧ directionThrough 0 false 0 0 { types := [.pedal { type := chars "change" }] } = .ok [] := by decide +kernel

/-- Dynamics with the text "p" of their own come out as the dynamics p. -/
theorem C99_called_p : directionThrough 0 false 0 0 { types := [.dynamics [{ child := chars "other-dynamics", text := chars "p" }]] } = .ok [.direction { types := [.dynamics [{ child := chars "p" }]] }] := by
  decide +kernel

end Mx.Props
