# Formal model of webern/mx in Lean 4

## Layout

| directory | contents |
|---|---|
| `lean/Verif/Model/*.lean` | the model: total, computable functions, each citing the file and lines of `/repo` it models (paths are relative to `/repo/Sourcecode`) |
| `lean/Verif/Spec/*.lean` | small specifications written independently of the model (calendar, MusicXML clock, abstract map, decimal numerals, ...) |
| `lean/Verif/Proofs/*.lean` | helper lemmas |
| `lean/Verif/Props/*.lean` | only the property theorems, each with an `example` showing that a concrete, non-trivial case meets its hypotheses, and `#print axioms` |

## Trusted base

* Lean 4.33.0's kernel.
* Axioms: at most `propext`, `Classical.choice`, `Quot.sound` (printed by `#print axioms` beside every property theorem).
* The faithfulness of the model: it was produced by reading the C++ source; nothing in it was extracted mechanically
  except the tables: enumerations (`core/Enums.cpp`, `impl/Converter.cpp`), attribute structs and elements
  (`core/elements/*`), and the enumerations and attributes of the schema (`Documents/musicxml.xsd`) were copied by
  scripts; the generated Lean files are committed.
* `double` and `long double` are modelled by rational numbers; rounding of binary floating point is modelled for the decimal classes in C81, for times in C82, for alterations in C83 and for single numbers of the API in C84, which show where it makes no difference, and not elsewhere.
* Not modelled: the compiler, memory safety, `std::` containers (taken as their mathematical meaning), iostream
  formatting beyond what is stated in each model, locale, file system (streams
  are texts). Of pugixml the parser (`parse_tree` with the options the program uses), the printer and the declaration are modelled for UTF-8
  input (C72, C73); its memory management, other encodings and XPath are not.
* `int` is modelled by `Int`; where the code can overflow a signed `int` the model has a distinct outcome
  (`Option.none`/`Except`), and theorems state the precondition under which it does not happen.
* `long double` values are modelled by exact rationals (`Rat`) or exact integers in units of 10^-6; binary floating point rounding is
  modelled in C81 to C84 only. This is stated at each place.

## Plan by property

| id | what is modelled | how it is proved |
|---|---|---|
| C01 | `MeasureWriter::writeVoices/backup/forward/advanceCursorIfNeeded`, chord flag of `NoteWriter`, as a state machine emitting a list of music data elements | spec: a MusicXML clock over the emitted elements; invariant "writer cursor = MusicXML clock" by induction over voices and notes |
| C02 | `MeasureReader::getMeasureData/parseNote/parseBackup/parseForward` | simulation between the reader cursor and the MusicXML clock, induction over element lists |
| C03 | composition of both models | composition of C01 and C02 plus voice/staff grouping |
| C04 | same reader model | invariant `0 ≤ cursor` over all element lists |
| C05 | `findMaxDivisionsPerQuarter`, `convertDurationToGlobalTickScale` over rationals | divisibility by the lcm makes the rounding exact |
| C06 | `LcmGcd.cpp` with overflow and exceptions as outcomes | loop invariant of Euclid's algorithm; equality with `Int.gcd`/`Int.lcm` |
| C07, C08 | `DocumentManager` as a state machine; threads as interleavings of the critical sections | invariant over histories; refinement to an abstract finite map |
| C09, C10 | `ScoreConversions.cpp` over scores with abstract music data | induction over measures and parts; transposition of a rectangular matrix |
| C11–C14 | `Date.cpp` | invariant over operations; refinement of `addDays` to an independent day number; finite month table by cases; parse/print over strings |
| C15 | `Color.cpp` | hex digit lemmas, case analysis over string shapes |
| C16–C18 | `Integers.cpp`, `Decimals.cpp` range types | clamp lemmas, induction over histories |
| C19 | `PreciseDecimal` over rationals | ceiling arithmetic, digit lemmas |
| C20–C22 | comma separated lists and union types | list/string induction |
| C23 | tables of `Enums.cpp`, generated | kernel evaluation of the finite tables, lifted by a lookup lemma to all strings |
| C24 | tables of `Converter.cpp`, generated | the same |
| C25–C27 | `StringUtils.h`, `XsToken`, `XsString`, `XsID` | list induction |
| C28 | `convertToTranspose`, `convertToTransposeData` | integer division arithmetic; exact characterisation of the pairs that survive |
| C29 | part-group writer (`addScorePart`, with `std::sort` as any sorting routine) and reader (`reconcileParts`) | induction over parts with an invariant on the stack of open groups |
| C30, C31 | pitch and beam writer/reader | arithmetic; map/list lemma |
| C32 | time signature inheritance | fold invariant over measures |
| C33 | voice consolidation | permutation argument |
| C34 | `ScoreData::sort` with `std::sort` modelled as any sorted permutation | permutation/sortedness, for every admissible result |
| C35 | `MeasureLocation::isValid` | case analysis; the code violates the property on empty vectors (witness) |
| C36 | `stringToInt` | numeral lemma |
| C37 | misc data encoding | list/string induction |
| C38, C39 | mark and clef predicates | complete case analysis |
| C40 | key signatures (`writeKey`, `readKey`) | texts of numbers round trip; case analysis over modes; decimals of alterations |
| C43 | head of a measure (number, width, implicit) | token and decimal lemmas |
| C44 | `deriveNoteTypeFromDurationValue`, `findNormalNameAndDots` over ℚ | lengths compared by denominators |
| C57 | `getNumMeasures`, part lookup | fold invariant |
| C58 | `NoteWriter::getNote`, `NoteReader`, `parseNote` for one note | exact description of what comes back (`keptNote`), idempotence |
| C42, C59 | `PositionFunctions`, `LineFunctions`, `CurveFunctions`, `ColorFunctions`, the curve part of `NotationsWriter`/`parseNotations` and the ties of `NoteWriter` | exact description of what comes back (`kept…`), induction over the lists of curves and over the number of rounds |
| C41 (tuplets) | tuplet part of `NotationsWriter`, `TupletReader` | exact description (`keptTuplet`) |
| C38, C41 (marks), C42 (fonts) | `MarkData.cpp`, the mark part of `NotationsWriter`, the readers called by `parseNotations` (articulations, ornaments, technical, dynamics, fermatas, arpeggios, accidental marks), `FontFunctions.h`, `PrintFunctions.h` | case analysis over all mark types; invariant over the writer's loop (`Stands`); exact description (`keptMarks`, `keptPrint`) |
| C47 | `getScorePart`, `parseScorePart` (names, instrument, MIDI data) | exact description (`keptHead`) |
| C46 | `LayoutFunctions`, `writeSystemInfo`, `writePageInfo`, `scanForSystemInfo`, `scanForPageInfo` | exact description (`keptDefaults`, `keptLayouts`), the two scans by induction over the measures |
| C48, C60 | `PartReader::calculateNumStaves`, `getPartData`, `reconcileParts`, `PartWriter::writeMeasures`, `getScorePartwise` | count as maximum of the mentioned numbers (fold); reader invariant per staff; the writer by a closure principle (`Closed`: relations between buffer and output kept by every step), then induction over measures and parts |
| C41 (ottavas, chord extensions), C61, C62 | `DirectionWriter::getDirectionLikeThings`, `createHarmony`, `DirectionReader`, `MetronomeReader`, processing instructions as pugixml reads them; not modelled: the XML parser otherwise (elements are given as their values), `<sound>` | exact description of what comes back (`keptDirections`), induction over each list of contents, fold over the appended lists of types; exceptions by inversion of the monadic steps |
| C49, C50 | barlines and clefs in the measure writer and reader | invariants over the element lists of C01/C02 |
| C51 | `Decimal::parse` with stream extraction of a decimal number | grammar of numerals, list induction |
| C52 | escaping in attributes and contents | relation "XML reads this text as that string", list induction |
| C53 | `DynamicsValue`, `ModeValue`, `DistanceType`, `LineWidthType` | refinement to "named value or own text", induction over histories |
| C54 | the 175 attribute structs as generated tables, `toStream`/`fromXElementImpl` as interpreters of a table | one theorem for every table that passes a decidable consistency check; the check is evaluated by the kernel for each table |
| C55 | the same tables, 366 element classes, and the attributes of all elements of the schema (generated from `Documents/musicxml.xsd`) | kernel evaluation of the two finite tables, lifted by lemmas |
| C56 | `parseAttribute` for the value classes | the value classes' theorems C15, C17, C23 |
| C63, C64, C65 | the 138 element classes with children as generated tables (members, flags, choices, limits, `hasContents`, `streamContents` in order), trees of objects with every method that changes them, `toStream` as an interpreter of the tables; the content models of all 390 declarations of the schema as regular expressions (generated from `Documents/musicxml.xsd`). Not modelled: white space, processing instructions, attributes and values (elsewhere), sharing of one object by two owners | invariant over histories (`Built` to bounds of the lists); languages of the classes as regular expressions; a decision procedure for inclusion by partial derivatives, proved sound in Lean and evaluated by the kernel for each class; induction over trees |
| C66 | the `fromXElementImpl` of all element classes with children: 138 programs of a small language of reading statements (generated for the regular ones, by hand for the others), an interpreter of these programs, `importElement`, `importElementSet`, `importGroup`, and `Document::fromXDoc`. An attribute list or value is one text that is carried over; processing instructions and the messages are not modelled | induction over the size of the tree; one lemma for each kind of reading statement, a decision procedure (proved sound, evaluated by the kernel) for the 71 classes that are read by a plain loop, and one proof for each of the other classes |
| C67 | as C63 and C66, with the content models of the schema. `Spec/Supported.lean` lists what is supported: all content models of the schema, 17 of them narrowed | for every matching list of children there are objects of the class that write it: by induction over the statements of the class and the levels of groups (the converse of C63); that everything supported matches is decided by the inclusion procedure of C63 the other way round, evaluated by the kernel; then C66 |
| C68 | as C66 | every statement of every reader keeps the kind of an object, the number of its members and the lower limits of its vectors, for any list of children (induction over the statements, the children and the tree; that the tables of readers fit the tables of classes is evaluated by the kernel); then as C63 with these limits |
| C69 | as C66 | strict readers: a loop that succeeds has taken known children only (induction over the children); lenient readers: the loop over the children equals the loop over the filtered children; failures are handed on from a note to the document by an invariant of the loops (the object keeps its class) |
| C70 | `ScoreWriter::getScorePartwise` and `ScoreReader::getScoreData` without parts and defaults, both `createEncoding`, both `createPageTextItems`; dates, tokens, positions and fonts as for C11, C25, C42, C60 | exact description of what comes back (`keptTexts`); folds over the creators, rights and encoding elements, with the flags of what was found; the three numbers of the date against the calendar of C11 |
| C71 | the same functions as for C01 and C03, without any condition on times | invariant `Keeps` of every step of the writer: notes written so far, written and pending directions, clefs and keys; then the reader never fails on what the writer produces (`Timely`) and keeps every item |
| C72 | `ElementInterface::toStream`/`streamContents`-layout, `Document::toStream`, `toXDoc`, `PugiDoc::loadStream`/`saveStream`, the parser and the printer of pugixml, `ElementInterface::fromXElement` for attributes, texts and processing instructions; typed elements are generic trees with their line breaks | spec: what a tree holds and what is kept of it (`Spec/XmlSaved.lean`); the text the writer makes is a well formed spelling (`Spec/XmlFile.lean`), the parser reads any well formed spelling (`pieces_pass`), the printer prints a normal form, which is parsed again; mutual induction over trees |
| C73 | the same parser | spec: well formed texts as an inductive set with what they stand for, from the XML recommendation; induction over pieces, texts, values and character references |
| C74 | parser, writer, element objects and documents together | the theorems of C66, C67, C72 and C73 joined: the tree of element objects determines the element (injectivity of the coding of names, induction over the tree), for every faithful way to hold attributes and value in one text |
| C75 | the members of all 65 structs of the api and their `operator==` (tables extracted from the headers, Model/ApiStructs.lean), `areVectorsEqual`, maps, optionals, floating point comparison with infinities and NaN | spec: agreement at every depth except in listed members; the tables checked by `decide +kernel` and lifted; mutual induction over values |
| C76 | the readers and writers of all element classes (as in C66, C67), run one after the other, any number of times | invariant of everything a reader leaves behind (`Clear`, by induction over the element with the readers' programs checked statement by statement by a table check), which implies the conditions of C66 after the flags of `sound` are completed without changing what is written; valid documents meet the conditions on the order (inclusion of regular expressions) |
| C77 | the mutex and the parts created on first use of the five classes that have them (30 members), every `const` function of these classes as a list of steps (lock, test, make, set, read, unlock), any number of threads interleaved step by step | invariant of all reachable states: a thread that is at a step which touches such a member has locked the object, what has been returned is still there, and the heap has only grown by objects that look like the null pointers they replace; the functions' steps are checked by a table check. Left out: memory order below the level of the mutex, the streams written to |
| C78 | the nodes of an XML document in memory and the calls of `PugiElement`, `PugiAttribute` and the iterators, with the pugixml functions they use | refinement: every call keeps the relation between the document and a tree of plain lists; the loops over children by induction. Left out: use of elements after their removal, comments, the XML declaration |
| C79 | `PugiDoc`: its members, the declaration node and the document type, all its setters, loading (with the parser of C73) and saving (with the printer of C72) | invariant by induction over the calls: members and nodes are those of a small record of settings; loading and saving by the theorems about the parser and the printer. Left out: saving in UTF-16 and the byte order mark |
| C80 | the measure writer and reader of C01 and C02 once more, with every number they calculate in an `int` tested for its range | refinement: as long as a bound on the times (writing) or on the sum of durations (reading) holds, the model with ranges gives what the model without ranges gives; induction over staves, voices, notes and over the children of the measure |
| C81 | the decimal classes of C18, C19 and C51 once more, with every operation rounded to the nearest binary number of `prec` digits (ties to even; Model/Floating.lean, Model/FloatDecimals.lean) | refinement: below a bound the rounded operations give what exact arithmetic gives; error analysis (relative error 2^-prec, exactness of floor and difference); induction over histories |
| C82 | the measure reader and the time scale of C02 and C05 once more, with every operation rounded to the nearest binary number (Model/FloatTimes.lean) | refinement: the rounded reader gives what the exact reader gives, by an analysis of relative errors (at most 8 units of 2^-53) and, for whole numbers, exactness of every step; induction over elements, measures and parts; so C02 and C05 hold of it |
| C83 | the conversion between semitones, cents and the text of `<alter>` and `<key-alter>` once more, with every operation rounded (Model/FloatPitch.lean) | refinement for the text (the count of millionths is that of exact arithmetic), error analysis for the way back: the truncation gives the same semitones, the cents are within 10^-8; for 64 digits and whole cents the last rounding undoes all errors |
| C84 | one real number on its way through a decimal class, its text and back, every operation rounded (Model/FloatReals.lean) | the value that comes back is a function of the number of millionths alone, so the second trip is the identity; error analysis; exactness for dyadic fractions |
| C85 | the inline functions of include/mx/api that answer questions (Model/ApiQueries.lean) | loops as folds of a maximum; case analysis against a small specification and against what is written; error analysis for tenths per inch |
| C86 | the parser of C72 and C73 (Model/XmlParser.lean, Model/XmlDocument.lean) on a text and a part of it | each function of the parser that succeeds on a text succeeds with the same result if more text follows (Proofs/XmlCut.lean), so a parser that accepts a part goes on behind it with the nodes it has (XmlCutTree.lean); nodes of the document only grow; an element whose end tag is cut off cannot be finished since it can be continued in two ways (XmlCutDoc.lean) |
| C87 | Spec/XmlBroken.lean: a well formed beginning of a file (mark, declaration, document type, complete pieces, elements that have been begun one in the other) and, as an inductive predicate, what can be wrong behind it; the parser and `load` of C73 | the parser passes over the beginning with the begun elements on its stack (`Passes`, induction over the begun elements), then each kind of error makes `tag` fail; attributes in front of an error by induction over the attributes. Partial: rules that the parser does not check are findings |
| C88 | Model/DocumentData.lean: `getData` put together from the part list (C29), the time scale (C05), the parts (C48) and the directions (C61); Spec/DocumentData.lean: numbers of part groups, parts that are listed, note relations | both directions: induction over the children of the part list with the number of open groups, over measures and elements for the clefs, over direction types for the metronome marks |
| C89 | Model/ScoreWriting.lean: the loops of the writer of C04 with the assertions of `backup` and the outcome of the writer of directions (C62); Spec/ScoreWriting.lean: a direction of a score, tempos that are not beats per minute | refinement of Model/MeasureWriter.lean by induction over notes, voices, staves, measures and parts, with the clock never before the beginning of the measure as invariant and the directions consumed exactly once |
| C90 | both models of C03, any number of times; Spec/MeasureSettles.lean: the music of a measure without the numbers its notes carry, files in which time goes forward | what is read from any measure is a trail of notes (`Trail`) whose groups are readable (`StaffReadable`), so that C03 applies to it from then on; for files an invariant of the reader over its elements (`Reading`); for all measures, what the writer writes meets the conditions on files (`written_forward`) |
| C91 | the models of C48 and C60 (whole scores) as a relation between a score and what is loaded from its file; Spec/ScoreSettles.lean: histories of saves and loads, what is heard of a score | a score is read part by part (`rereadScore_eq`), equal ids included; what is loaded from any file or any written part is good (`GoodPart`, from C90), what is loaded from a good part has settled, and settled parts are loaded as they were; induction over the history |
| C92 | the models of C05, C33, C48 and C60 put together: file → data → file; Spec/PassThrough.lean compares the two files with MusicXML's own clock (Spec/MusicXMLClock.lean), not with ticks | reading keeps all times (`read_follows`, C05), what is read of a plain measure can be placed (`Passing`, `MeasureOk`), what is written of such a measure is where it should be (`clock_measure`); permutation of notes over voices and staves |
| C93 | the models of C01, C02 and C92; Spec/DirectionTime.lean places directions with MusicXML's clock | writing: what is written plus what is still pending stays the same list of (time, staff, content) in every step (`total`), with an invariant about the next pending direction inside chords (`HeadOk`); reading: the reader follows the clock (`read_follows_dirs`); files as in C92 |
| C94 | the models of C01, C02 and C92; Spec/ClefTime.lean places clefs with MusicXML's clock | writing: the clefs written, those in the buffer (at the clock's position) and those still pending (where they are wanted) stay the same list in every step, with the invariant that pending clefs are later than all notes so far of the first voice (`Pending`); reading: the reader follows the clock (`read_follows_clefs`); files as in C92 |
| C95 | the models of C01, C02 and C92; Spec/KeyTime.lean places keys with MusicXML's clock | writing: the multiset of the keys written, those in the buffer (at the clock's position) and those still waiting (where they are wanted) stays the same in every step, with the invariant that waiting keys are later than all notes so far of the first voice (`Waiting`); what is left after the voices is due where the last voice ends, and by strictness at most one key of the measure is left; reading: the reader follows the clock (`read_follows_keys`); files as in C92 |
| C96 | Model/Barline.lean: `MeasureReader::parseBarline` and `MeasureWriter::writeBarlines` with the contents of barlines (style, ending, repeat; not modelled: `times` and `winged` of repeats, the text of endings, segno, coda, fermatas and the wavy line, which `parseBarline` does not look at), used as the contents of the barlines in the models of C01, C02 and C92; Spec/BarlineTime.lean gives MusicXML's places | one barline: by cases, the ending number with C20; places when saving: barlines of time 0 are at the beginning, the others at the end, with nothing but the clock in between; loading: the reader follows the clock (`read_follows_barlines`); files as in C92, with every barline passed through the API (`recode_kept`) |
| C97 | the model of C58 in the other direction: `NoteReader` and `parseNote`, then `NoteWriter::getNote`; Spec/NoteSaid.lean says what a `<note>` means (numerals of any spelling, defaults) | each element by itself: numerals with C17, C19 and C51 (an alteration is split into semitones and cents and put together again), enumerations by their finite tables, beams by sorting |
| C98 | the models of C92 and C97 together: the notes of a file carry their elements (Model/NotesThrough.lean) | the times from C92 (which is parametric in what notes say), the contents from C97 by induction over the number of passes, joined by moving the permutation of the notes to the end |
| C99 | the models of C61 in the other order, file → API → file (Model/DirectionsThrough.lean); Spec/DirectionSaid.lean: what a `<direction>` says | invariant of the reader's fold over the direction types (what the lists of the direction hold is a permutation of what was said so far, the words in order); the writer says what the lists hold; induction over the number of passes |
| C100 | the models of C61 for `<harmony>` in the other order (Model/DirectionsThrough.lean; inversions and frames, which are neither read nor written, are left out); Spec/ChordSaid.lean: what a chord symbol says | each part forth and back (numbers with C18, C19 and C51), induction over degrees, chords and the number of passes |
| C101 | Model/TimesThrough.lean: which `<time>` of a measure is read, on top of the models of C32, file → API → file; Spec/TimesSaid.lean: what `<time>` elements say | induction over the measures with any meter before, and over the number of passes |
| C102 | Model/SignaturesThrough.lean: `<clef>` and `<key>`, file → API → file, on top of the models of C32; Spec/SignaturesSaid.lean: what the elements say | case analysis on what the elements have, induction over the accidentals and over the number of passes |
| C103 | Model/HeadersThrough.lean: the attributes of `<measure>` and `<multiple-rest>`, file → API → file, on top of the model of C43; Spec/HeadersSaid.lean: what they say | induction over the measures with any index before, and over the number of passes |
| C104 | Model/HeadersThrough.lean: which `<transpose>` of a part is read, and the models of C28, file → API → file; Spec/HeadersSaid.lean: the total interval | integer arithmetic for all totals, induction over the `<attributes>` elements and the number of passes |
| C105 | Model/HeaderThrough.lean: the elements before the part list, file → API → file, on top of the model of C70; Spec/HeaderSaid.lean: what they say, each kind of item by itself | induction over the items with any found before, and over the number of passes |
| C106 | Model/PartListThrough.lean: the children of the part list, file → API → file, on top of the model of C29; Spec/GroupsSaid.lean: the groups that starts and stops say, found by looking forward from each start | induction over the children with the groups still open; what is written is in order again, so it is read in two ways (C29 and this one) that must agree |
| C107 | Model/ScorePartThrough.lean: a score-part, file → API → file, on top of the model of C47; Spec/ScorePartSaid.lean: what a score-part says, with numbers as numbers | case analysis over what is present; the numbers with the theorems for numerals (C18, C19, C51) |
| C108 | Model/LayoutThrough.lean: defaults and print elements, file → API → file, on top of the model of C46; Spec/LayoutSaid.lean: what they say, with lengths as numbers | lemmas for reading and for writing, each about what is said; the map of layouts after both scans as in C46 |
| C109 | Model/CurvesThrough.lean: curves of a note, file → API → file, on top of the model of C42; Spec/CurvesSaid.lean: what an element says, with numbers as numbers and colours as channels | lemmas for reading and for writing, each about what is said; induction over the elements; the order of writing is a permutation that keeps each type in order |
| C110 | Model/TupletsThrough.lean: tuplets of a note, file → API → file, on top of the model of C41; Spec/TupletsSaid.lean: what an element says together with the time modification of its note | lemmas for reading and for writing, each about what is said; induction over the elements; the order of writing is a permutation that keeps starts and stops in order |
| C111 | Model/MarksThrough.lean: marks of a note, file → API → file, on top of the model of C41; Spec/MarksSaid.lean: what the notation elements of a note say, independent of grouping | lemmas for reading and for writing each kind of mark; an invariant of the writer's fold: each group of the elements written says the marks of that group, in order; the order of writing is a permutation |
| C112 | Model/NotationsThrough.lean: all notations of a note in one loop, on top of C109, C110 and C111; Spec/NotationsSaid.lean: the curves, tuplets and marks among them | the loop is three independent loops (induction over the children); the writer's output split by kind; then C109, C110 and C111 |
| C113 | Model/WholeNote.lean: a note with its notations, on top of C97 and C112: tie flags and time modification come from the note; Spec/WholeNoteSaid.lean | C97 and C112 for one pass, with the ties of `addTie` in front; induction over the passes |
| C114 | Model/WholeNotesThrough.lean: the notes of files with their notations, on top of C92 (times) and C113 (contents); Spec/WholeNotesThrough.lean: the same notes at the same times saying the same | C92 is parametric in the contents of notes; composed with C113 note by note, as in C98 |

Anything the code gets wrong is recorded in the section "Findings" below, with the theorem that
proves the violation and the `_partial` theorem that remains.

## Findings

Behaviour of the code that contradicts the property as stated.  Each line names the theorem with the concrete witness.

| property | finding | theorem |
|---|---|---|
| C01 | a note beside a chord in the same voice is misplaced; unequal chord members misplace the next note; a grace chord swallows a chord; a note of length 0 shifts the rest | `C01_note_beside_chord_is_misplaced`, `C01_unequal_chord_misplaces_next_note`, `C01_grace_chord_swallows_chord`, `C01_zero_length_note_shifts_the_rest` |
| C03 | a chord of one note loses its flag; consecutive voices are merged; overlapping notes are separated | `C03_single_chord_note_loses_flag`, `C03_consecutive_voices_are_merged`, `C03_overlapping_notes_are_separated` |
| C05 | overflow of the common multiple, divisions below 1/2 (division by zero), missing divisions (0 ticks per quarter) | `C05_scale_overflow`, `C05_small_divisions_undefined`, `C05_missing_divisions` |
| C06 | gcd of the smallest int is undefined | `C06_gcd_smallest` |
| C09 | measure attributes of all but one part are lost; ragged scores are undefined; unlisted parts are lost | `C09_attributes_of_last_part`, `C09_ragged_undefined`, `C09_unlisted_part_lost` |
| C10 | an exception leaves the document partwise; a missing part is added | `C10_exception_leaves_partwise`, `C10_missing_part_is_added` |
| C18 | a positive decimal can become 0; 2^64 is undefined | `C18_positive_decimal_can_be_zero`, `C18_huge_number_undefined` |
| C19 | rounding carries above the largest number; the largest number of a negative value has the wrong sign | `C19_carry_exceeds_maximum`, `C19_maximum_of_negative` |
| C20, C21 | spaces inside numbers are dropped; an empty last token is lost; escapes are not resolved | `C20_spaces_are_dropped`, `C21_trailing_empty_token_lost`, `C21_escapes_not_resolved` |
| C22 | junk is accepted as a number | `C22_number_or_normal_accepts_junk`, `C22_positive_integer_or_empty_accepts_junk` |
| C24 | three values are missing in the tables | `C24_fa_up_lost`, `C24_sharp_sharp_lost`, `C24_fingernails_lost` |
| C27 | names may begin with `-` or `.` | `C27_illegal_name` |
| C36 | numerals outside `int` are undefined | `C36_overflow_undefined` |
| C37 | spaces and empty strings are lost | `C37_spaces_and_empty_strings_lost` |
| C49, C50 | barlines inside a measure and clefs inside a note move | `C49_middle_barline_moves`, `C50_clef_inside_note_moves` |
| C52 | a double quote breaks the attribute; line ends change | `C52_quote_breaks_attribute`, `C52_line_ends_change` |
| C53 | the literal text "other" is lost | `C53_other_text_lost` |
| C54 | the second Bézier handle of ties is lost; `dash-length` of `scoop` and others is written twice (not well-formed); documents with `link` or `opus` cannot be opened; `hole-closed` and `play` do not read their attributes; `bracket` does not check its required attributes | `C54_tie_loses_second_handle`, `C54_dash_length_twice`, `C54_links_fail`, `C54_attributes_not_read`, `C54_bracket_unchecked` |
| C55 | `color`, `valign`, `dir` are missing on 97 elements; 5 elements can have a `print-object` that the schema forbids | `C55_missing_real`, `C55_extra_real` |
| C56 | valid values in non-canonical form are rejected, and with them the whole document | `C56_valid_but_rejected` |
| C28 | transpositions that are not the usual spelling change (C sharp: 1,0 becomes 1,1; 13,7 becomes 13,8); the smallest int is undefined | `C28_sharp_transposition_changed`, `C28_augmented_octave_changed`, `C28_smallest_int_undefined` |
| C32 | compound numerators and senza misura are ignored: the measure takes the previous time signature | `C32_compound_meter_ignored`, `C32_senza_misura_ignored` |
| C39 | soprano and mezzo-soprano clefs are set on lines 0 and 1; a clef at the start of a measure loses its location; a missing line is invented | `C39_soprano_lines_wrong`, `C39_location_lost`, `C39_line_invented` |
| C40 | dorian and unsupported modes are lost; custom keys lose staff and time; a sharp lowered by 25 cents is read as raised by 75 | `C40_dorian_unspecified`, `C40_unsupported_lost`, `C40_custom_staff_lost`, `C40_mixed_signs_changed` |
| C34 | keys and barlines are not sorted; the order of the notes of a chord may change | `C34_keys_and_barlines_unsorted`, `C34_chord_order_not_kept` |
| C35 | throws on an empty score or part; true for measures without staves | `C35_throws_on_empty`, `C35_no_staves_but_valid` |
| C44 | durations are compared with the ticks of the score instead of the divisions of the part; four names are never derived; dotted notes of tuplets are always misnamed; notes of tuplets of 41 notes can be misnamed | `C44_tuplet_of_41`, `C44_mixed_divisions_wrong`, `C44_names_never_derived`, `C44_dotted_always_wrong`, `C44_dotted_half_named_quarter` |
| C30, C31 | octaves are limited to 0..9; cents against the alteration change; more than eight beams are dropped | `C30_octave_limited`, `C30_opposite_cents_changed`, `C31_beams` |
| C58 | marks of accidentals, display positions, `isTied` and normal types are never written; an unspecified duration name becomes a maxima; fa-up becomes an invisible notehead and sharp-sharp a natural | `C58_accidental_marks_lost`, `C58_display_lost`, `C58_is_tied_lost`, `C58_normal_type_lost`, `C58_unspecified_name_becomes_maxima`, `C58_fa_up_lost` |
| C59 | every time a score is written and read, each tied note gets additional tie curves, without bound: one for a start or a stop, two starts and two stops for a note that is both | `C59_rounds`, `C59_ties_multiply` |
| C42 | `CurveStart::placement`, line hooks and end lengths, alignments and the second Bézier point of continued ties are lost; the end of a curve of unspecified type comes back as the *start* of a tie; a Bézier offset beyond `int` makes reading undefined | `C42_placement_lost`, `C42_hook_lost`, `C42_alignment_lost`, `C42_tie_handle_lost`, `C42_unspecified_becomes_tie_start`, `C42_offset_undefined` |
| C41 | tuplet positions are not written; a default tuplet becomes 0 maximas in the time of 0 maximas; reading a tuplet with only `<tuplet-actual>` overwrites its number and leaves the normal number unset (the two guess functions set each other's number) | `C41_tuplet_position_lost`, `C41_tuplet_defaults_changed`, `C41_tuplet_guess_swapped` |
| C41 | print data of marks never comes back (dynamics and fermatas: written but not read; the others: read but not written); positions of fermatas are lost (`parseMarkDataAttributes` is given the pointer, which has no members); `fingernails` becomes an unnamed other technical mark; pedals, arpeggios and accidental marks on notes are not written; the order of marks of different groups changes; 6 to 8 slashes are read as 3 | `C41_print_data_lost`, `C41_dynamic_color_lost`, `C41_fermata_position_lost`, `C41_fingernails_lost`, `C41_fingernails_not_read`, `C41_marks_not_written`, `C41_arpeggio_not_written`, `C41_accidental_mark_not_written`, `C41_mark_order_lost`, `C41_many_slashes`, `C41_named_dynamic_changed`, `C41_custom_name_changed` |
| C42 | `printObject` is never written; more than three lines become three; font families with commas are split | `C42_print_object_lost`, `C42_lines_limited`, `C42_family_comma_splits`, `C42_empty_family_lost` |
| C29 | abbreviation and texts for display of groups are not written; bracket type "unspecified" comes back indeterminate (uninitialised member), and a group with an unassigned bracket type cannot be written (undefined); `==` ignores number and bracket type; overlapping groups with the same number are swapped; a `<score-part>` without `<part>` shifts the groups; a number that is no numeral throws; a group without stop is lost | `C29_texts_lost`, `C29_unspecified_bracket_indeterminate`, `C29_default_group_undefined`, `C29_equality_ignores_number`, `C29_same_number_swaps`, `C29_missing_part_shifts`, `C29_named_number_throws`, `C29_unstopped_group_lost` |
| C47 | the MIDI numbers 0 become 1; an instrument with only a sound is lost; MIDI name and unpitched note are not written; without id the `<midi-instrument>` refers to an instrument that does not exist; the abbreviation for display is read from the name for display; sharps in names are lost; unknown sounds (valid by the schema) throw | `C47_zero_becomes_one`, `C47_sound_alone_lost`, `C47_midi_name_lost`, `C47_midi_instrument_id_differs`, `C47_display_abbreviation_replaced`, `C47_sharp_text_lost`, `C47_unknown_sound_throws` |
| C46 | page margins without size come back with size 0 by 0, a top system distance without margins with margins 0; negative page margins become 0; staff distances of measures and measure numbering are lost; other appearances become distances of length 0; `==` ignores the scaling | `C46_size_fabricated`, `C46_margins_fabricated`, `C46_staff_distance_lost`, `C46_measure_numbering_lost`, `C46_other_appearance_lost`, `C46_scaling_not_compared` |
| C48 | a clef on a staff that no note, direction or `<staves>` mentions makes loading fail | `C48_clef_alone_fails` |
| C60 | two parts with the same id (for example two parts without `uniqueId`, or ids equal after replacing characters) come back as two copies of the first one; a part without measures gets one, a score without parts gets one; staves that exist only in later measures are merged into the first | `C60_same_id_loses_part`, `C60_similar_id_loses_part`, `C60_empty_not_kept`, `C60_later_staff_lost` |
| C61 | segnos, codas, rehearsal marks and the ends of brackets are never written | `C61_not_written` |
| C61 | the numbers of wedges and ottavas, positions of ottavas, all of a bracket but its number, colours of words and wedges are lost; a bracket without a number gets the number 1 | `C61_wedge_number_lost`, `C61_ottava_lost`, `C61_bracket_lost`, `C61_words_color_lost` |
| C61 | chord symbols on a lower staff move to the first staff unless `isStaffValueSpecified` is set, unlike all other directions | `C61_harmony_staff_lost` |
| C61 | every chord of a symbol gets the processing instructions of all its chords: with two chords their number doubles with every round | `C61_misc_doubles` |
| C61 | `<damp-all>` is read as an empty rehearsal mark, a wedge of type `continue` as the start of a wedge (and written as a crescendo); pedal changes are skipped | `C61_damp_all`, `C61_wedge_continue`, `C61_pedal_change` |
| C41 | ottavas are written and read with the direction opposite to the one in the documentation of MusicXML (8va as `up`) | `C41_ottava_direction` |
| C41 | degrees of a chord other than 1-7, 9, 11, 13 are dropped | `C41_degree_dropped` |
| C62 | a metronome mark whose text is not an integer ("c. 108"), or with two beat units, is loaded, and then the score cannot be written; one with notes and relations cannot be loaded | `C62_tempo`, `C62_tempo_text`, `C62_note_relation` |
| C62 | misc data of a chord whose name is no XML name make the written document unreadable | `C62_misc_name` |
| C63 | the last item of `notehead-text`, `time` and of a timewise `measure` can be removed although the schema needs one; accidental marks of `ornaments` can be written without an ornament (and cannot stand between ornaments); `percussion` accepts `stick-type` and `stick-material` as children; in a compound `time` an `interchangeable` can come before other `beats` | `C63_careless`, `C63_time_interchangeable` |
| C64 | a `sound` with a midi device or `play` but no midi instrument is written with a midi instrument (the test is of the pointer, which is never null, instead of the flag) | `C64_sound` |
| C66 | no document with a `play` or a `percussion` can be loaded (the element compares its own name with the names of its children); nor one with `other-notation` in `notations` (compared with "other-notations"), a circular arrow, a timewise measure without parts, or a lyric with a footnote or a level | `C66_complaints`, `C66_complaint_fatal` |
| C66 | the texts of `notehead-text` and the links and bookmarks between the words of a credit are read from the parent element, so their texts and attributes are lost unless they are those of the parent; `normal-type` and `normal-dot` of a metronome tuplet and the `syllabic` after an `elision` are lost; `laughing`, `humming` or `extend` followed by `end-line` becomes an empty text; an empty `key` gets a `fifths`, an empty `time` beats | `C66_losses` |
| C67 | valid documents that cannot be loaded: besides those of C66, an empty `dynamics` | `C67_refused` |
| C67 | valid documents that come back changed: the `offset` of a `sound`, a second midi instrument of a `sound`, all but the first of several `dynamics`, all but the first time signature of `interchangeable` and all but the first note after a metronome relation are lost; an empty `slash`, `beat-repeat`, `page-layout` gets children with default values; accidental marks lose the ornament they belong to; a `sound` with a midi device alone gets a midi instrument | `C67_changed` |
| C68 | the readers put objects into vectors without the limits that the methods of the classes have: three fermatas of a barline, nine beams of a note, three page margins are loaded and saved; so are `interchangeable` before another `beats` and an accidental mark without an ornament | `C68_not_valid` |
| C69 | one element of a later version of MusicXML within a note makes the whole document unloadable, within a measure it is passed over; a child of an unknown name among repeated elements (`line-width` of `appearance`) makes the reader lose what came before it, without a message | `C69_partwise`, `C69_torn` |
| C69 | the reader of `notations` looks for `other-notations`, the schema (and the writer) say `other-notation` | `C69_misspelt` |
| C70 | arranger and publisher of a score are never written; arranger and publisher of a document are put into the lyricist, in place of the real one, and are called lyricist when the score is saved | `C70_arranger_lost`, `C70_arranger_as_lyricist` |
| C70 | a date is written if at least one of its three numbers is possible: 2020 without month and day becomes 2020-01-01, 2021-02-30 becomes 2021-02-28; a date that cannot be parsed is read as 1900-01-01 | `C70_date_changed`, `C70_date_invented` |
| C71 | of several changes of key within a measure those after the last note are lost but one (`writeRemaining…` takes only one) | `C71_second_key_change_lost` |
| C71 | a change of key that a measure gives for one staff is written without the staff unless it is at the beginning | `C71_key_change_for_all_staves` |
| C02 | durations are rounded to ticks one by one, so errors add up; after a chord the time goes on by the duration of the last instead of the first note | `C02_rounding_adds_up`, `C02_unequal_chord` |
| C72 | double quotes in attribute values are not escaped (`toStream` of `XsString` leaves them): saving throws, or further attributes arise from the value; a file with `&quot;` in an attribute can be loaded but not saved | `C72_quote_not_saved`, `C72_quote_adds_attribute`, `C72_loaded_but_not_saved` |
| C72 | `?>` in the data of a processing instruction ends it; the rest becomes part of the document | `C72_instruction_breaks_out` |
| C72 | control characters are saved as references such as `&#01;`, which XML 1.0 does not allow | `C72_control_characters` |
| C72 | texts of nothing but white space are lost; instructions inside an element without children come behind it; instructions in front of the root element are lost | `C72_load_save_partial` (`keptText`, `keptInstrs`) |
| C73 | a text with a comment in it, or of which a part is in a CDATA section, is cut: `xml_text` takes the first piece only; texts of white space are not loaded | `C73_comment_cuts_text`, `C73_section_cuts_text`, `C73_blank_text` |
| C75 | `operator==` of `WordsData`, `NoteData`, `DirectionData`, `DefaultsData`, `PartGroupData` and `LyricData` leaves out eight members (texts of words and lyrics, noteheads, rehearsal marks, scaling, bracket type and number): scores that differ only there compare equal. A position of NaN compares equal to every position. `isDirectionDataEmpty` does not look at chord symbols and rehearsal marks | `C75_ignored`, `C75_words_ignored`, `C75_not_transitive`, `C75_nan`, `C75_empty_direction` |
| C76 | `NotationsChoice::fromXElementImpl` knows `other-notation` only as `other-notations` and writes it as `other-notation`: a document with the misspelt name is loaded and saved without complaint, but what is saved cannot be loaded. In a lyric, `end-line` before `laughing` is kept, but written after it, where it is dropped by the next load | `C76_not_stable` |
| C77 | The setters of the parts that are created on first use write the pointer without taking the lock, so a setter races with a `const` call of another thread (as usual for functions that are not `const`). Without `MX_CONST_THREAD_SAFE`, as a comment in `Lock.h` offers, `const` calls race with each other and may return two different objects for one part | `C77_setter_race`, `C77_lock_needed` |
| C78 | A child that is added to an element that has been given a value (even the empty text) is never seen by the iterators. A value given to a processing instruction is silently lost; if an instruction stands before the text of an element, a new value for the element goes to the instruction. `removeChild` may remove a processing instruction instead of the element of that name; `removeAttribute` removes the first attribute of the name, not the one the iterator stands at. The parent of the root cannot be asked for without an exception | `C78_hidden_child`, `C78_instruction_value_lost`, `C78_value_goes_to_instruction`, `C78_remove_takes_instruction`, `C78_wrong_attribute` |
| C79 | A declaration with another version than 1.0 and 1.1 is kept, while the document says 1.0. If a processing instruction stands in front of the document type, the document says that it has none, and setting one gives a text with two. A loaded document always says UTF-8: the case for `encoding_utf16` is never reached, as pugixml reports the byte order | `C79_other_version`, `C79_second_doctype`, `C79_always_utf8` |
| C80 | Times that do not fit are not rejected, the behaviour is undefined: notes at the end of the range; two notes of half the range in different staves (the writer adds the length of the first note of a staff to the end of the staff before); notes of negative time, whose lengths add up; documents with long durations, offsets or divisions, or with short durations when another part has many divisions | `C80_written_at_the_end_undefined`, `C80_two_long_staves_undefined`, `C80_negative_times_undefined`, `C80_long_note_undefined`, `C80_two_long_notes_undefined`, `C80_scaled_note_undefined`, `C80_divisions_and_offset_undefined`, `C80_small_divisions_undefined` |
| C81 | Numbers of six decimals beyond the bound are written with other decimals than were read: 8589934592.000001 becomes 8589934592.000002 where `long double` has 53 digits, 17592186044416.000001 becomes 17592186044416.000002 where it has 64 | `C81_large_numbers_change` |
| C82 | Lengths of an odd number of half ticks are rounded up or down depending on the platform: 1.1 divisions of 25 ticks (27.5) become 28 ticks where `long double` has 53 digits and 27 where it has 64, 0.3 divisions of 25 ticks (7.5) become 7 and 8; the notes behind them move as well | `C82_half_ticks_depend_on_platform` |
| C83 | The cents of a part of a custom key are compared with `==`; where `long double` has 53 digits one semitone and one cent come back as 1.0000000000000009 cents, so that the key is not equal to the one that was written (cents of notes are compared with a tolerance) | `C83_cents_depend_on_platform` |
| C84 | Most real members (widths, margins, page sizes, font sizes, volumes, Bezier points, spreads) are compared with `==`; a width of 10.1, given as a `double`, does not equal the one that is read from the file where `long double` has 64 digits. A tiny positive number is written as 0 where 0 is not allowed, and comes back as a millionth | `C84_exact_comparison_fails`, `C84_tiny_positive` |
| C85 | `ColorData::isBlack` is true of white and of no black colour. `CurvePoints::isSpecified` ignores relative positions and the placement, `LineData::isSpecified` the hook and the end length. A score without scaling has one tenth per millimetre (-1 divided by -1) | `C85_black_is_white`, `C85_black`, `C85_curve_points`, `C85_line`, `C85_no_scaling` |
| C86 | Not a violation of the property, but of XML: text behind the root element and a second root element are accepted and ignored, so that of two files one behind the other the first one is loaded without an error | `C86_text_behind`, `C86_second_root_ignored` |
| C87 | XML asks for more than the parser checks: attributes given twice, `<` and `&` in attribute values, references to entities or characters that do not exist, `--` in comments, text, declarations and document types at wrong places, and anything behind a NUL character are accepted | `C87_attribute_twice`, `C87_raw_characters`, `C87_unknown_reference`, `C87_misplaced`, `C87_behind_nul` |
| C88 | Valid documents that load and then do not give their data: a part group with a number like `strings` or `01` (the schema allows any token), a clef on a staff that nothing else mentions, a metronome mark of notes and a relation | `C88_group_number`, `C88_clef_alone`, `C88_note_relation` |
| C89 | The API offers tempos as text and metric modulations (and `TempoData{}` is neither); one such tempo anywhere keeps the whole score from being written | `C89_text_tempo`, `C89_default_tempo` |
| C90 | A grace note that has been given a length is written without it; two voices that are still two after the first save and load are one after the second | `C90_twice_needed` |
| C91 | A score can be saved in a file that cannot be loaded: a clef on a staff that the first measure does not have and on which there is nothing else | `C91_late_clef_fails` |
| C92 | A chord right after a chord of grace notes is saved as part of the grace chord; since the grace notes take no time, all later notes of the voice in the measure are saved too early; also if the chords were in two voices, the second time | `C92_grace_chord`, `C92_second_time` |
| C93 | A direction that lies in a chord that begins its voice (more than one time in the voice) is written between the notes of the chord, with an offset counted from the beginning of the chord: by MusicXML's clock it is too late by the length of the chord; loading and saving a file moves such a direction | `C93_in_first_chord`, `C93_moved_by_saving` |
| C93 | A direction on (or in) a chord that comes right after a grace note is written between the notes of the chord: too late by the length of the chord | `C93_chord_after_grace_note` |
| C93 | The `<offset>` of a direction or harmony is added to the tick time without converting divisions to ticks | `C93_offset` |
| C93 | A direction between the notes of a chord is loaded at the beginning of the chord, not at MusicXML's position (its end) | `C93_between_notes_of_chord` |
| C94 | A clef at a time at which no note of the first voice of its staff starts is written before the next note of the first voice (or of a later voice): too late. This is also so if a note of the second voice starts at that time; loading and saving a file moves such a clef | `C94_between_notes`, `C94_second_voice`, `C94_moved_by_saving` |
| C94 | A clef for the end of a measure is written where the last voice ends: too early if that voice is shorter | `C94_short_last_voice` |
| C94 | A clef between the notes of a chord is loaded at the beginning of the chord, not at MusicXML's position (its end) | `C94_between_notes_of_chord` |
| C95 | A key at a time at which no note of the first voice starts is written before the next note: too late; at the end of a measure whose last voice is shorter: too early | `C95_between_notes`, `C95_short_last_voice` |
| C95 | Before each note at most one key of the measure is written (`if` instead of a loop), so a second key at the same time comes a note too late; after the last note of the last staff only one is written and the others are lost | `C95_two_keys`, `C95_lost_key` |
| C95 | A key of the measure that is for one staff is written for all staves unless it is at the beginning of the measure; so loading and saving a file in which one staff changes its key inside a measure changes the key of all staves | `C95_loses_staff`, `C95_moved_by_saving` |
| C95 | A key between the notes of a chord is loaded at the beginning of the chord | `C95_between_notes_of_chord` |
| C95 | A non-traditional key is loaded as a key of all staves at the beginning of the measure, whatever its `number` and position | `C95_non_traditional` |
| C96 | A barline in the middle of a measure is written after all notes (only barlines of time 0 are written before them), and a repeat that begins there is written as the end of a repeat | `C96_middle_moves`, `C96_middle_repeat` |
| C96 | The API has one number per ending: of an ending for the times 1 and 2 only 1 is left; an ending with a blank number, which MusicXML allows, becomes a first ending | `C96_endings_lost`, `C96_blank_ending` |
| C96 | The bar styles "tick" and "short" are lost (they convert to `unsupported`, which is not written) | `C96_short_barline` |
| C96 | A barline without a location at the beginning of a measure's document is, by MusicXML's default, the right barline; it is saved as the left one, and the end of a repeat becomes the beginning of one | `C96_no_location` |
| C96 | A repeat at a right barline whose time was left at its default 0 is written as the beginning of a repeat | `C96_right_repeat` |
| C97 | A note without `<type>` is saved with one: a maxima if the derivation finds none (dotted and tuplet notes, breves), and a wrong one in a part whose divisions are not the ticks of the score | `C97_type_invented` |
| C97 | The place of rests and unpitched notes on the staff is lost (all notes of a drum part on one line), as are the type of rests for whole measures and the marks of accidentals (parentheses, cautionary, editorial, bracket) | `C97_display_lost`, `C97_measure_rest_type`, `C97_accidental_marks` |
| C97 | The accidental sharp-sharp is lost, the notehead fa up becomes an invisible one, and `<normal-type>` is lost outside of complete tuplets | `C97_sharp_sharp`, `C97_normal_type` |
| C97 | Beams with gaps in their numbers are renumbered; a beam without a number after two others overwrites one of them | `C97_beam_gap`, `C97_beam_lost` |
| C99 | simultaneous wedges lose the numbers that tell them apart; a wedge that continues becomes a crescendo; an octave shift by three octaves becomes one by two | `C99_wedge_numbers`, `C99_wedge_continue`, `C99_three_octaves` |
| C99 | directions with only a segno, coda, rehearsal mark or change of pedal are gone after loading and saving; `other-dynamics` with the text of a standard dynamic becomes that dynamic | `C99_gone`, `C99_called_p` |
| C100 | chords given by their function are gone after loading and saving; degrees other than 1–7, 9, 11, 13 are dropped, alterations of degrees are cut to two semitones, hidden degrees become visible; quarter tones of roots are rounded | `C100_functions`, `C100_degrees`, `C100_quarter_tones` |
| C101 | of a sum of meters only the first is kept; (3+2)/8 and `senza-misura` are gone after loading and saving; of several `<time>` elements in a measure (for other staves, or later in the measure) only the first is kept; the symbols other than common and cut are lost | `C101_sum_of_meters`, `C101_gone`, `C101_two_staves`, `C101_second_change`, `C101_symbol` |
| C102 | a clef below the staff loses its line; tablature and percussion clefs without a line get line 1 and 3; modes other than major and minor are lost; a key signature without anything becomes one without sharps and flats; single accidentals for one staff come out for all; a key for a staff that the part does not have comes out for all staves; the double sharp of two sharps loses its sign | `C102_line_below`, `C102_line_invented`, `C102_dorian`, `C102_custom`, `C102_sharp_sharp`, `C102_key_no_staff` |
| C103 | an empty measure number becomes the place of the measure; negative widths and `non-controlling` are gone; multi-measure rests are read into `multiMeasureRest` but never written, so they are lost when a file or score is saved | `C103_gone`, `C103_rests` |
| C104 | a transposition by semitones on the same step (or with steps of whole octaves only) is saved without steps and means the usual interval then; quarter tones are cut off; of several transpositions of a part only the first at the beginning is kept | `C104_sharp`, `C104_quarter_tone`, `C104_changes`, `C104_nothing` |
| C105 | after loading and saving, second composers, creators of other types and rights other than the copyright are gone, an arranger (or publisher) has become the lyricist, a creator without type the composer; second encoders and dates are gone, a date that is none is 1900-01-01; images, second types of credits and versions other than 3.0 are gone | `C105_creators`, `C105_no_type`, `C105_encoders`, `C105_credits` |
| C106 | after loading and saving, the abbreviations of groups are gone; a file with a group without symbol, which is valid, cannot be saved with defined behaviour | `C106_abbreviation`, `C106_no_symbol` |
| C107 | after loading and saving, at most one instrument per part is left (drum sets lose all others), MIDI names, unpitched notes, accidentals in names and shown abbreviations are lost, an instrument with only a sound is gone; a sound outside the standard list prevents loading | `C107_one_instrument`, `C107_midi_name_and_unpitched`, `C107_no_accidentals`, `C107_abbreviation_shown`, `C107_sound_alone`, `C107_other_sound` |
| C108 | after loading and saving, the distances of all staves but the first are gone, a top system distance without margins has got margins of 0, negative page margins are 0, other appearances are distances of length 0, of two print elements of a measure one is left | `C108_staves`, `C108_margins_invented`, `C108_negative_margins`, `C108_other_appearance`, `C108_two_prints` |
| C109 | after n times of loading and saving, a note that starts a tie has n more tied elements; the line type, colour and orientation of a slur that ends, and the second Bézier point of a tie that continues, are lost; a Bézier offset of 2.5 is 2; a colour in lower case is white; a slur number 7 is 6 | `C109_ties_grow`, `C109_line_of_a_stop`, `C109_second_point`, `C109_offset_rounded`, `C109_lower_case_color`, `C109_number_seven` |
| C110 | after loading and saving, positions of tuplets and brackets of tuplet ends are lost; a tuplet with `<tuplet-actual>` only has the wrong number of notes in the time of 0 notes, one with `<tuplet-normal>` only has 0 notes; a tuplet on a note without time modification is 0 maximas in the time of 0 maximas; parts without a type are maximas | `C110_position_lost`, `C110_no_position`, `C110_bracket_of_a_stop`, `C110_only_actual`, `C110_only_normal`, `C110_no_time_modification`, `C110_no_type` |
| C111 | after loading and saving, arpeggios, non-arpeggios, accidental marks, fingerings, tremolos between two notes, places of fermatas and all colours and fonts of marks are lost; a tremolo of eight slashes has three; an other ornament without a text gets one; an other dynamic with the name of a dynamic becomes that dynamic | `C111_fermata_place_lost`, `C111_bare`, `C111_technical_lost`, `C111_arpeggio_lost`, `C111_accidental_mark_lost`, `C111_double_tremolo_lost`, `C111_eight_slashes`, `C111_empty_ornament`, `C111_named_dynamic` |
| C112 | slides, glissandos and other notations of a file are lost | `C112_others_lost` |
| C113 | a note at which a tie ends and another starts has two `<tied>` elements, after one save six, after two saves ten, and so on | `C113_ties_grow`; the exact number for every note in `C113_curves_counted` |
| C45 | a note of the same time as the chord note before it, but outside the chord, moves by the length of that chord note, and so do all directions after it | `C45_direction_moves_after_mixed_chord` |

### Observations without a theorem

Seen while reading; no theorem is claimed for these, as the code is dead or the effect is outside the model.

- `DocumentManager::createFromFile` rethrows with `throw e`, which cuts the exception down to its base class (private/mx/api/DocumentManager.cpp 90); the comments of include/mx/api/DocumentManager.h 36-58 promise -1 where the functions throw.
- private/mx/core/DocumentSpec.cpp lacks `break` in three switches: `timewise` is printed as `timewiseerror`, `3.0` as `3.0error`, `dtd` as `dtdxsderror` (lines 21-25, 60-64, 95-101); `xsd` is parsed as `dtd` (121-124). Nothing uses this file.
- The success of reading some children is not asked for: `per-minute` in private/mx/core/elements/Metronome.cpp 131-149 (modelled in Model/ContentReader.lean); `isSuccess =` overwrites an earlier failure in TimeModification.cpp.
- `setPrintObject` in private/mx/impl/PrintFunctions.h is inverted and never called; private/mx/impl/StaffFunctions.cpp is dead code.
- Assigning a null iterator to an `XElementIterator` leaves the target unchanged; `!=` with a null implementation is false.
