import Verif.Proofs.MeasureOverflow
import Verif.Props.MeasureProps

/-!
# Property C80: times of a measure stay within the range of int
Specification: `Verif/Spec/MeasureOverflow.lean`. Model: `Verif/Model/MeasureOverflow.lean`, where a number that does not fit into `int` is undefined behaviour.
-/
namespace Mx.Props
open Spec Mx.Measure

variable {P : Type}

/-! ## Writing -/

/-- **C80** Measures whose notes begin at 0 or later and end at 1073741823 ticks or earlier are written without any number leaving the range of `int`, and what is written is what the model without a range writes:
all that is proved about it (C01 and others) holds. -/
theorem C80_writing (env : WEnv) (m : MeasureData P) (h : TimesFit m) : writeMeasureR env m = .ok (writeMeasure env m) := writeMeasureR_ok env m h

/-- **C80** With C01: such a measure is written and its notes are where the caller put them. -/
theorem C80_written_notes (env : WEnv) (m : MeasureData P) (divisionsBefore : ℚ) (hG : 0 < env.ticksPerQuarter)
    (hd : env.isFirstMeasureInPart = false → divisionsBefore = env.ticksPerQuarter) (hm : MeasureOk m) (h : TimesFit m) :
    ∃ es, writeMeasureR env m = .ok es ∧ placedNotes (Clock.init divisionsBefore) es = expectedNotes env.ticksPerQuarter env.numStaves m :=
  ⟨_, C80_writing env m h, C01_written_measure_places_notes_partial env m divisionsBefore hG hd hm⟩

/-- The measure of C01's example fits. -/
theorem exMeasure_fits : TimesFit exMeasure := by
  constructor <;> decide

example : ∃ es, writeMeasureR exEnv exMeasure = .ok es ∧ es.length = 15 := by
  rw [C80_writing exEnv exMeasure exMeasure_fits]
  exact ⟨_, rfl, by decide +kernel⟩

/-- The last time that fits. -/
example : TimesFit (oneVoice [exNote 1073741822 1 false "last"]) := by constructor <;> decide

/-- **C80** A note at the last number of `int`: its end is no `int`, the behaviour is undefined. -/
theorem C80_written_at_the_end_undefined : writeMeasureR exEnv (oneVoice [exNote 2147483647 1 false "end"]) = .error .undefined := by decide +kernel

/-- Two staves with one voice of one note each, and a direction in the second staff. -/
def twoStaves (a b : NoteData String) (d : DirectionData String) : MeasureData String :=
  { staves := [{ clefs := [], keys := [], voices := [(0, [a])], directions := [] }, { clefs := [], keys := [], voices := [(0, [b])], directions := [d] }], keys := [], barlines := [] }

/-- **C80** Why the bound is half of the range: two notes at the beginning of the measure, one in each staff, none of them ending after 1500000000. As there is a direction in the second staff, the length of
its note is added to the end of the first staff. -/
theorem C80_two_long_staves_undefined : writeMeasureR exEnv (twoStaves (exNote 0 1500000000 false "c") (exNote 0 1500000000 false "e") ⟨0, false, "p"⟩) = .error .undefined := by decide +kernel

/-- **C80** Notes with negative times are written where the notes in front of them end, so their lengths add up without a bound. -/
theorem C80_negative_times_undefined : writeMeasureR exEnv (oneVoice [exNote (-5) 1500000000 false "c", exNote (-5) 1500000000 false "e"]) = .error .undefined := by decide +kernel

/-! ## Reading -/

/-- **C80** A measure of a document whose durations, backups, forwards and offsets add up to no more than 2147483647 ticks (with one tick more for each of them, as each may be rounded up) is read without any number leaving
the range of `int`: the reader returns or throws what the model without a range returns or throws.

Missing from the full property: documents whose times are larger. For those it is false, see below. -/
theorem C80_reading_partial (env : REnv) (divisions : Int) (es : List (Elem P)) (hG : 0 < env.globalTicksPerQuarter) (hd : 0 < divisions) (hs : ∀ e ∈ es, Sensible e)
    (hx : extent env.globalTicksPerQuarter (Clock.init divisions) es ≤ 2147483647) :
    readElemsR env es (initRSt divisions) = toRes (readElems env false es (initRSt divisions)) :=
  readElemsR_ok hG rfl es (Clock.init divisions) 0 (initRSt divisions) ⟨hd, rfl, by simp [initRSt], by simp [initRSt]⟩ hs (by linarith)

/-- **C80** With C02: if durations are whole numbers of ticks and the staves exist, the measure is read and its notes are where MusicXML has them. -/
theorem C80_read_notes (env : REnv) (divisions : Int) (es : List (Elem P)) (hG : 0 < env.globalTicksPerQuarter) (hd : 0 < divisions) (hs : ∀ e ∈ es, Sensible e)
    (hx : extent env.globalTicksPerQuarter (Clock.init divisions) es ≤ 2147483647)
    (hw : WellTimed env.globalTicksPerQuarter (Clock.init divisions) none es) (he : StavesExist env.numStaves es) :
    ∃ r, readElemsR env es (initRSt divisions) = .ok r ∧
      r.notes.map (ReadNote.place env.globalTicksPerQuarter) = (placedNotes (Clock.init divisions) es).map Placed.place := by
  obtain ⟨r, h1, h2⟩ := C02_read_positions_partial env divisions es hG hd hw he
  exact ⟨r, by rw [C80_reading_partial env divisions es hG hd hs hx, h1]; rfl, h2⟩

/-- The measure of C02's example is sensible and short. -/
example : (∀ e ∈ exElems, Sensible e) ∧ extent 12 (Clock.init 1) exElems ≤ 2147483647 := by
  constructor
  · intro e he
    simp only [exElems, exElem, List.mem_cons, List.not_mem_nil, or_false] at he
    rcases he with rfl | rfl | rfl | rfl | rfl | rfl | rfl | rfl | rfl
    · intro d hd
      exact ⟨3, by decide, by decide, by simpa using hd.symm⟩
    all_goals simp [Sensible]
  · simp [exElems, exElem, extent, Clock.step, Clock.init, Clock.quarters]
    norm_num

example : (readElemsR ⟨1, 12⟩ exElems (initRSt 1)).map (fun r => r.notes.map (·.note.tick)) = .ok [0, 0, 12, 8, 20] := by decide +kernel

/-- **C80** A single duration that is no `int`. -/
theorem C80_long_note_undefined : readElemsR ⟨1, 1⟩ [exElem false 3000000000 "c"] (initRSt 1) = .error .undefined := by decide +kernel

/-- **C80** Durations that are each an `int`. -/
theorem C80_two_long_notes_undefined : readElemsR ⟨1, 1⟩ [exElem false 2000000000 "c", exElem false 2000000000 "d"] (initRSt 1) = .error .undefined := by decide +kernel

/-- **C80** A short note, if other parts of the score have many divisions. -/
theorem C80_scaled_note_undefined : readElemsR ⟨1, 1000000000⟩ [exElem false 3 "c"] (initRSt 1) = .error .undefined := by decide +kernel

/-- **C80** Divisions and offsets that are no `int`. -/
theorem C80_divisions_and_offset_undefined :
    readElemsR ⟨1, 1⟩ [.attributes { divisions := some 3000000000000000 }] (initRSt 1 : RSt String) = .error .undefined ∧
    readElemsR ⟨1, 1⟩ [.direction none (-3000000000000000) "p"] (initRSt 1) = .error .undefined := by decide +kernel

/-- **C80** Divisions below one half (here 0.3, but also `<divisions>0</divisions>`, which is kept as 0.000001): rounded to zero ticks per quarter note, a division by zero whose result is cast to `int`. -/
theorem C80_small_divisions_undefined : readElemsR ⟨1, 4⟩ [.attributes { divisions := some 300000 }, exElem false 1 "c"] (initRSt 1) = .error .undefined := by decide +kernel

end Mx.Props
