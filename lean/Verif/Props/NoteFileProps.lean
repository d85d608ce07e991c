import Verif.Proofs.NoteKept

/-!
# Property C97: the notes of a file keep what they say
Specification: `Verif/Spec/NoteSaid.lean`.
-/
namespace Mx.Props
open _root_.Spec
open Measure (NoteKind)

/-- A note that is loaded and saved.  `siblings` are the notes of its voice and `G`, `duration` the ticks per quarter note and the contents of `<duration>` with which it is read. -/
def savedNote (tpq : Int) (siblings : List TupletSibling) (index : Nat) (G : Int) (duration : ℚ) (x : NoteXml) : Option NoteXml :=
  (readNote G duration x).bind (writeNote (tupletNormal tpq siblings index))

/-- **C97 (partial)** A note of a file that is loaded and saved says the same as before: its kind, ties, sound (rest, unpitched or pitch with its alteration and octave), type, dots, accidental, the ratio of its time
modification, stem, notehead and beams; the beams may be in another order, which does not matter as they are numbered.  Numbers may be spelt in any way.

Missing, because the code does not do it: the conditions `FileNoteKept` (witnesses below), and `<normal-type>` (`C97_normal_type`); of several beams all must have their numbers (`C97_beam_lost`). -/
theorem C97_note_partial (tpq : Int) (siblings : List TupletSibling) (index : Nat) (G : Int) (duration : ℚ) (x : NoteXml) (a : NoteSaid) (h : NoteSays x a) (hk : FileNoteKept a)
    (hb : ∀ b ∈ x.beams, b.number = none → x.beams.length = 1) :
    ∃ y bs, savedNote tpq siblings index G duration x = some y ∧ bs.Perm a.beams ∧ NoteSays y { a with beams := bs } := by
  obtain ⟨n, y, h1, h2, bs, h3, h4⟩ := note_kept G duration (tupletNormal tpq siblings index) h hk hb
  exact ⟨y, bs, by rw [savedNote, h1]; exact h2, h3, h4⟩

/-- A dotted sixteenth in a triplet, a quarter tone below B flat 3, tied to the next note. Some numbers are spelt unusually and the beams are in reverse order. -/
def fileNote : NoteXml :=
  { kind := .normal, ties := [chars "start"], sound := .pitch (chars "B") (some (chars "-1.50")) (chars "+3"), type := some (chars "16th"), dots := 1
    accidental := some { value := chars "three-quarters-flat", parentheses := some (chars "no") }
    timeModification := some { actualNotes := chars "3", normalNotes := chars " 2", normal := none }
    stem := some (chars "up"), notehead := none, beams := [⟨some (chars "2"), chars "forward hook"⟩, ⟨some (chars "1"), chars "begin"⟩] }

/-- What it says. -/
def fileNoteSaid : NoteSaid :=
  { kind := .normal, tieStart := true, tieStop := false, sound := .pitch .b (-3 / 2) 3, type := some .sixteenth, dots := 1, accidental := some (.threeQuartersFlat, false, false, false, false)
    actualNotes := 3, normalNotes := 2, stem := some .up, notehead := .normal, beams := [(2, .forwardHook), (1, .begin)] }

example : NoteSays fileNote fileNoteSaid ∧ FileNoteKept fileNoteSaid ∧ (∀ b ∈ fileNote.beams, b.number = none → fileNote.beams.length = 1) := by
  refine ⟨?_, ?_, by decide⟩
  · have hi : ∀ (sign : Str) (d : Char) (v : Nat), (sign = [] ∨ sign = ['+']) → Digit d → digitsVal [d] = v → IntegerText (sign ++ [d]) (v : Int) := by
      intro sign d v hs hd hv
      exact ⟨[], sign, [d], [], by simp, by simp, by simp, by simp, by simpa using hd, .inr ⟨hs, by rw [hv]⟩⟩
    refine ⟨rfl, by decide, by decide, by decide, ⟨rfl, ?_, hi ['+'] '3' 3 (.inr rfl) (by decide) rfl⟩, rfl, rfl, ?_, ⟨hi [] '3' 3 (.inl rfl) (by decide) rfl, ?_⟩, rfl, .inr ⟨rfl, rfl⟩, ?_⟩
    · refine ⟨[], ['-'], ['1'], ['5', '0'], ['.'], [], [], rfl, by simp, by simp, by decide, by decide, by simp, .inl rfl, 0, .inl ⟨rfl, rfl⟩, .inl ⟨rfl, ?_⟩⟩
      decide +kernel
    · exact ⟨rfl, .inr ⟨rfl, .inr rfl⟩, .inr ⟨rfl, .inl rfl⟩, .inr ⟨rfl, .inl rfl⟩, .inr ⟨rfl, .inl rfl⟩⟩
    · exact ⟨[' '], [], ['2'], [], rfl, by simp, by simp, by simp, by decide, .inr ⟨.inl rfl, by decide⟩⟩
    · exact .cons ⟨rfl, hi [] '2' 2 (.inl rfl) (by decide) rfl⟩ (.cons ⟨rfl, hi [] '1' 1 (.inl rfl) (by decide) rfl⟩ .nil)
  · refine ⟨⟨by decide, by decide, ⟨-1500000, by norm_num⟩, by rw [abs_le]; constructor <;> norm_num⟩, by decide, by simp [fileNoteSaid], ?_, by decide, by decide, by decide, ?_⟩
    · intro v p c e b he
      cases he
      exact ⟨by decide, rfl⟩
    · exact ⟨by decide, by decide⟩

/-- What is saved. -/
example : savedNote 12 [] 0 12 3 fileNote = some
    { kind := .normal, ties := [chars "start"], sound := .pitch (chars "B") (some (chars "-1.5")) (chars "3"), type := some (chars "16th"), dots := 1
      accidental := some { value := chars "three-quarters-flat" }, timeModification := some { actualNotes := chars "3", normalNotes := chars "2", normal := none }
      stem := some (chars "up"), notehead := none, beams := [⟨some (chars "1"), chars "begin"⟩, ⟨some (chars "2"), chars "forward hook"⟩] } := by
  decide +kernel

/-! ### what is lost -/

/-- A plain quarter note C4. -/
def plainNote : NoteXml :=
  { kind := .normal, ties := [], sound := .pitch (chars "C") none (chars "4"), type := some (chars "quarter"), dots := 0, accidental := none, timeModification := none, stem := none, notehead := none, beams := [] }

example : savedNote 12 [] 0 12 12 plainNote = some plainNote := by decide +kernel

/-- **C97 fails for notes without type**: `<type>` may be left out.  A dotted half note of three quarter notes is then saved as a maxima, which has 32, and in a part whose divisions are not those of the score the name
is wrong even for simple notes: with one division per quarter note in a score of two ticks per quarter note, a half note is saved as a quarter note. -/
theorem C97_type_invented :
    (savedNote 12 [] 0 12 36 { plainNote with type := none }).map (·.type) = some (some (chars "maxima")) ∧
    (savedNote 2 [] 0 2 2 { plainNote with type := none }).map (·.type) = some (some (chars "quarter")) := by
  decide +kernel

/-- **C97 fails for the type of whole measure rests**: it is lost. -/
theorem C97_measure_rest_type :
    (savedNote 12 [] 0 12 48 { plainNote with sound := .rest (some (chars "yes")) none, type := some (chars "whole") }).map (fun y => (y.sound, y.type)) = some (.rest (some (chars "yes")) none, none) := by
  decide +kernel

/-- **C97 fails for rests and unpitched notes shown at a place of their own**: the place is lost, so that all unpitched notes of a drum part are on one line. -/
theorem C97_display_lost :
    (savedNote 12 [] 0 12 12 { plainNote with sound := .unpitched (some (chars "F", chars "5")) }).map (·.sound) = some (.unpitched none) ∧
    (savedNote 12 [] 0 12 12 { plainNote with sound := .rest none (some (chars "F", chars "5")) }).map (·.sound) = some (.rest none none) := by
  decide +kernel

/-- **C97 fails for marks of accidentals**: a cautionary accidental in parentheses becomes an ordinary one. -/
theorem C97_accidental_marks :
    (savedNote 12 [] 0 12 12 { plainNote with accidental := some { value := chars "natural", parentheses := some (chars "yes"), cautionary := some (chars "yes") } }).map (·.accidental) =
      some (some { value := chars "natural" }) := by
  decide +kernel

/-- **C97 fails for two sharps in a row**: the accidental "sharp-sharp" is lost, and the notehead "fa up" an invisible one. -/
theorem C97_sharp_sharp :
    (savedNote 12 [] 0 12 12 { plainNote with accidental := some { value := chars "sharp-sharp" }, notehead := some (chars "fa up") }).map (fun y => (y.accidental, y.notehead)) =
      some (none, some (chars "none")) := by
  decide +kernel

/-- **C97 fails for `<normal-type>`**: without a tuplet that starts and stops in the voice it is lost. -/
theorem C97_normal_type :
    (savedNote 12 [] 0 12 12 { plainNote with timeModification := some { actualNotes := chars "3", normalNotes := chars "2", normal := some (chars "eighth", 0) } }).map (·.timeModification) =
      some (some { actualNotes := chars "3", normalNotes := chars "2", normal := none }) := by
  decide +kernel

/-- **C97 fails for numbers of beams with gaps**: a note that has only a second beam gets a first one instead. -/
theorem C97_beam_gap :
    (savedNote 12 [] 0 12 3 { plainNote with beams := [⟨some (chars "2"), chars "backward hook"⟩] }).map (·.beams) = some [⟨some (chars "1"), chars "backward hook"⟩] := by
  decide +kernel

/-- **C97 fails for a beam without a number after two others**: the number is 1 by default, but it takes the place of the second beam, which is lost. -/
theorem C97_beam_lost :
    (savedNote 12 [] 0 12 3 { plainNote with beams := [⟨some (chars "2"), chars "begin"⟩, ⟨some (chars "3"), chars "begin"⟩, ⟨none, chars "continue"⟩] }).map (·.beams) =
      some [⟨some (chars "1"), chars "continue"⟩, ⟨some (chars "2"), chars "begin"⟩] := by
  decide +kernel

end Mx.Props
