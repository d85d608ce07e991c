import Verif.Proofs.MarksSaid
import Verif.Props.TupletFileProps
import Verif.Props.CurveFileProps

/-! C111: the marks of the notes of a file. -/
namespace Mx.Props
open _root_.Spec Mx.Spec

/-- **C111 (partial)** The articulations, ornaments, tremolos, technical marks, dynamics and fermatas of a note that is read and written say the same: what, with which text and where.  None is
lost, added or changed, and each group stays in its order.  The full property is for all marks; the theorems below show what is not kept. -/
theorem C111_marks_partial (tick : Int) (xs : List NotationXml) (l : List MarkSaid) (hs : MarksSay xs l) (hk : ∀ a ∈ l, MarkKept a) :
    ∃ ys m, marksThrough tick xs = some ys ∧ MarksSay ys m ∧ SameMarks m l := by
  obtain ⟨ys, h1, h2⟩ := marks_said tick hs hk
  exact ⟨ys, _, h1, h2, marksWritten_same l⟩

/-- **C111 (partial)** The same however many times the file goes through the program. -/
theorem C111_for_ever_partial (ticks : List Int) (xs : List NotationXml) (l : List MarkSaid) (hs : MarksSay xs l) (hk : ∀ a ∈ l, MarkKept a) :
    ∃ ys m, marksThroughTimes ticks xs = some ys ∧ MarksSay ys m ∧ SameMarks m l := by
  induction ticks generalizing xs l with
  | nil => exact ⟨xs, l, rfl, hs, .refl _, fun _ => rfl⟩
  | cons tick ticks ih =>
    obtain ⟨ys, m, h1, h2, h3, h4⟩ := C111_marks_partial tick xs l hs hk
    obtain ⟨zs, o, g1, g2, g3, g4⟩ := ih ys m h2 (fun a ha => hk a (h3.mem_iff.mp ha))
    exact ⟨zs, o, by rw [marksThroughTimes, h1]; exact g1, g2, g3.trans h3, fun g => (g4 g).trans (h4 g)⟩

/-- A tremolo, a staccato above, a forte, a trill in another element, an up bow and a dynamic of its own. -/
def sixMarks : List NotationXml :=
  [.ornaments [{ choice := .tremolo, text := chars "02" }] [], .articulations [{ choice := .staccato, position := { placement := some (chars "above"), defaultX := some (chars "015") } }],
   .dynamics { child := chars "f", position := { halign := some (chars "left") } }, .ornaments [{ choice := .trillMark }] [], .technical [{ choice := .upBow }],
   .dynamics { child := chars "other-dynamics", text := chars "loud" }]

/-- What they say. -/
def sixMarksSaid : List MarkSaid :=
  [{ kind := .tremolo 2 }, { kind := .articulation .staccato, place := { placement := some .above, defaultX := some 15 } }, { kind := .dynamic .f, place := { halign := some .left } },
   { kind := .ornament .trillMark }, { kind := .technical .upBow }, { kind := .dynamic .otherDynamics, text := chars "loud" }]

theorem sixMarks_say : MarksSay sixMarks sixMarksSaid := by
  have hn : DecimalSays none none := .inl ⟨rfl, rfl⟩
  have hp : MarkPlaceSays {} {} := ⟨hn, hn, hn, hn, rfl, rfl, rfl⟩
  refine ⟨[[_], [_], [_], [_], [_], [_]], ?_, rfl⟩
  exact .cons ⟨rfl, .cons ⟨rfl, hp, .inr ⟨rfl, .inl rfl, rfl, 2, rfl, numeral_says _ _ (by decide)⟩⟩ .nil⟩
    (.cons (.cons ⟨rfl, ⟨digits_say _ _ (by decide +kernel), hn, hn, hn, rfl, rfl, rfl⟩, rfl, rfl⟩ .nil)
    (.cons ⟨_, rfl, rfl, ⟨hn, hn, hn, hn, rfl, rfl, rfl⟩, ⟨.f, rfl, rfl⟩, rfl⟩
    (.cons ⟨rfl, .cons ⟨rfl, hp, .inl ⟨by decide, rfl, rfl⟩⟩ .nil⟩
    (.cons (.cons ⟨rfl, hp, rfl, rfl⟩ .nil)
    (.cons ⟨_, rfl, rfl, hp, ⟨.otherDynamics, rfl, rfl⟩, rfl⟩ .nil)))))

theorem sixMarks_kept : ∀ a ∈ sixMarksSaid, MarkKept a := by
  intro a ha
  simp only [sixMarksSaid, List.mem_cons, List.not_mem_nil, or_false] at ha
  rcases ha with rfl | rfl | rfl | rfl | rfl | rfl
  · exact ⟨(⟨by decide, by decide⟩ : (1 : Int) ≤ 2 ∧ (2 : Int) ≤ 5), by simp, fun _ => ⟨rfl, rfl⟩, fun s d h => (by cases h)⟩
  · refine ⟨fun _ => rfl, ?_, fun _ => ⟨rfl, rfl⟩, fun s d h => (by cases h)⟩
    intro v hv n hn
    simp only [List.mem_cons, List.not_mem_nil, or_false] at hv
    rcases hv with rfl | rfl | rfl | rfl <;> cases hn
    exact ⟨⟨15000000, by norm_num⟩, by norm_num⟩
  · exact ⟨⟨fun _ => rfl, fun h => (by cases h)⟩, by simp, fun h => (by cases h), fun s d h => (by cases h)⟩
  · exact ⟨⟨fun _ => rfl, fun h => (by cases h)⟩, by simp, fun _ => ⟨rfl, rfl⟩, fun s d h => (by cases h)⟩
  · exact ⟨⟨by decide, fun _ => rfl⟩, by simp, fun _ => ⟨rfl, rfl⟩, fun s d h => (by cases h)⟩
  · refine ⟨⟨fun h => absurd rfl h, fun _ => ⟨by decide, fun d => ?_⟩⟩, by simp, fun h => (by cases h), fun s d h => (by cases h)⟩
    cases d <;> decide

example : ∃ ys m, marksThrough 0 sixMarks = some ys ∧ MarksSay ys m ∧ SameMarks m sixMarksSaid := C111_marks_partial _ _ _ sixMarks_say sixMarks_kept

/-- The example as it is written. -/
example : marksThrough 0 sixMarks =
    some [.dynamics { child := chars "f", position := { halign := some (chars "left") } }, .dynamics { child := chars "other-dynamics", text := chars "loud" },
      .articulations [{ choice := .staccato, position := { placement := some (chars "above"), defaultX := some (chars "15") } }],
      .ornaments [{ choice := .tremolo, text := chars "2", tremoloType := some (chars "single") }, { choice := .trillMark }] [], .technical [{ choice := .upBow }]] := by decide +kernel

/-- **C111 is false for fermatas with a place**: it is lost. -/
theorem C111_fermata_place_lost : marksThrough 0 [.fermata { text := chars "normal", position := { defaultY := some (chars "10") } }] = some [.fermata { text := chars "normal" }] := by decide +kernel

/-- **C111 is false for all colours and fonts, and for all places of fermatas**: whatever the notations of a note, no mark has a colour or a font after it is saved, and no fermata has a place. -/
theorem C111_bare (tick : Int) (xs ys : List NotationXml) (h : marksThrough tick xs = some ys) : ∀ y ∈ ys, BareNotation y := through_bare h

/-- a red fermata above the staff and a red forte -/
example : marksThrough 0 [.fermata { text := chars "normal", position := { defaultY := some (chars "10") }, print := { color := some (chars "#FF0000") } }, .dynamics { child := chars "f", print := { color := some (chars "#FF0000") } }] =
    some [.fermata { text := chars "normal" }, .dynamics { child := chars "f" }] := by decide +kernel

/-- **C111 is false for fingerings, fingernails, bends and the other technical marks that are not listed**: whatever they are, they are lost, among whatever other marks. -/
theorem C111_technical_lost (tick : Int) (before after : List NotationXml) (l r : List (MarkXml Core.TechnicalChoice)) (x : MarkXml Core.TechnicalChoice) (h : x.choice ∉ keptTechnical) :
    marksThrough tick (before ++ .technical (l ++ x :: r) :: after) = marksThrough tick (before ++ .technical (l ++ r) :: after) := by
  have hx : readTechnical tick x = some none := by
    rw [readTechnical, if_pos]
    have : ∀ c : Core.TechnicalChoice, c ∉ keptTechnical → (MapName.technicalMarkMap.toApi c : Api.MarkType) = .unspecified ∧ c ≠ .otherTechnical := by
      intro c; cases c <;> decide +kernel
    exact this _ h
  have hr : readNotation tick (.technical (l ++ x :: r)) = readNotation tick (.technical (l ++ r)) := by
    rw [readNotation, readNotation, readAll, readAll, List.mapM_append, List.mapM_append, List.mapM_cons, hx]
    cases e1 : l.mapM (readTechnical tick) with
    | none => rfl
    | some a =>
      cases e2 : r.mapM (readTechnical tick) with
      | none => rfl
      | some b =>
        show some ((a ++ none :: b).filterMap id) = some ((a ++ b).filterMap id)
        rw [List.filterMap_append, List.filterMap_append]
        rfl
  rw [marksThrough, marksThrough, readMarks, readMarks, List.mapM_append, List.mapM_append, List.mapM_cons, List.mapM_cons, hr]

/-- a fingering -/
example : Core.TechnicalChoice.fingering ∉ keptTechnical ∧ marksThrough 0 [.technical [{ choice := .fingering, text := chars "3" }]] = some [] := by decide +kernel

/-- **C111 is false for arpeggios, up, down or without direction, and for non-arpeggios**: they are lost, among whatever other marks, which are not changed. -/
theorem C111_arpeggio_lost (tick : Int) (before after : List NotationXml) (direction : Option Str) :
    marksThrough tick (before ++ .arpeggiate direction :: after) = marksThrough tick (before ++ after) ∧ marksThrough tick (before ++ .nonArpeggiate :: after) = marksThrough tick (before ++ after) := by
  refine ⟨notation_lost tick before after rfl (fun m hm => ?_), notation_lost tick before after rfl (fun m hm => ?_)⟩
  · rw [List.mem_singleton.mp hm]; exact arpeggiate_unwritten tick direction
  · rw [List.mem_singleton.mp hm]; show writerGroup .nonArpeggiate = _; decide +kernel

/-- **C111 is false for accidental marks**: if their lengths can be read at all, they are lost, among whatever other marks, which are not changed. -/
theorem C111_accidental_mark_lost (tick : Int) (before after : List NotationXml) (text : Str) (position : PositionXml) (m : MarkData) (h : readAccidentalMark tick text position = some m) :
    marksThrough tick (before ++ .accidentalMark text position :: after) = marksThrough tick (before ++ after) :=
  notation_lost tick before after (ms := [m]) (by rw [readNotation, h]; rfl) (fun m' hm => by rw [List.mem_singleton.mp hm]; exact accidentalMark_read h)

/-- a sharp above a note -/
example : ∃ m, readAccidentalMark 0 (chars "sharp") { placement := some (chars "above"), defaultX := some (chars "5") } = some m :=
  Option.isSome_iff_exists.mp (by decide +kernel)

/-- **C111 is false for tremolos between two notes**: they are lost. -/
theorem C111_double_tremolo_lost : marksThrough 0 [.ornaments [{ choice := .tremolo, text := chars "2", tremoloType := some (chars "start") }] []] = some [] := by decide +kernel

/-- **C111 is false for tremolos without slashes or with many**: eight slashes become three. -/
theorem C111_eight_slashes : marksThrough 0 [.ornaments [{ choice := .tremolo, text := chars "8" }] []] = some [.ornaments [{ choice := .tremolo, text := chars "3", tremoloType := some (chars "single") }] []] := by decide +kernel

/-- **C111 is false for an ornament of its own without a text**: it gets one. -/
theorem C111_empty_ornament : marksThrough 0 [.ornaments [{ choice := .otherOrnament }] []] = some [.ornaments [{ choice := .otherOrnament, text := chars "other-ornament" }] []] := by decide +kernel

/-- **C111 is false for an other dynamic with the name of a dynamic**: it becomes that dynamic. -/
theorem C111_named_dynamic : marksThrough 0 [.dynamics { child := chars "other-dynamics", text := chars "ff" }] = some [.dynamics { child := chars "ff" }] := by decide +kernel

end Mx.Props
