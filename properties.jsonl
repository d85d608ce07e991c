{"id": "C01", "title": "Written measures place every note where the caller asked", "statement": "When a ScoreData is written, and the resulting <note>, <chord/>, <backup>, <forward> stream of each measure is interpreted by the MusicXML rules (notes advance the clock, chord notes share the onset of the note before, backup/forward move the clock), every note of every staff and voice is found at exactly the tickTimePosition the caller gave it, with its own duration, in its own voice and staff.", "quantifier": "every measure: any number of staves, voices and notes, any non-negative tick positions and durations with the notes of a voice in time order", "why_tests_cant": "The cursor of the writer is carried across voices and staves; whether it ever drifts depends on the whole history of notes, gaps, overlaps and chords, which tests sample only for a few hand-written measures.", "anchors": ["Sourcecode/private/mx/impl/MeasureWriter.cpp: MeasureWriter::writeVoices, backup, forward, advanceCursorIfNeeded, isAdvanceNeeded", "Sourcecode/private/mx/impl/NoteWriter.cpp: setNoteChoiceAndFullNoteGroup"]}
{"id": "C02", "title": "Reading a measure assigns MusicXML positions", "statement": "When a document is loaded, the tickTimePosition of every NoteData equals the position that the MusicXML rules give to that <note> element, after rescaling of divisions: the sum of previous non-chord durations and forwards minus backups in document order; all notes of one chord get the same position.", "quantifier": "every sequence of note, chord note, grace note, backup and forward elements in a measure", "why_tests_cant": "Chord handling needs a look-ahead of one element and backup clamps at zero; only a proof over all element sequences shows that no interleaving shifts later notes.", "anchors": ["Sourcecode/private/mx/impl/MeasureReader.cpp: getMeasureData, parseNote, parseBackup, parseForward", "Sourcecode/private/mx/impl/Cursor.cpp"]}
{"id": "C03", "title": "Measure timing survives write then read", "statement": "Writing a measure and reading it back yields the same notes with the same positions, durations, staves and voices: no note is lost, duplicated or moved.", "quantifier": "every measure of a well formed score (chords flagged, voices in time order)", "why_tests_cant": "It is the composition of two state machines that each carry a cursor; a mismatch shows only for particular combinations of overlaps, chords and staves.", "anchors": ["Sourcecode/private/mx/impl/MeasureWriter.cpp: writeVoices", "Sourcecode/private/mx/impl/MeasureReader.cpp: getMeasureData", "Sourcecode/include/mx/api/DocumentManager.h: createFromScore, getData"]}
{"id": "C04", "title": "Measure time never runs negative while reading", "statement": "Whatever backups a loaded file contains, no note, direction or barline of the resulting ScoreData has a negative tick position caused by backup: the reading position of a measure stays >= 0.", "quantifier": "every sequence of music data elements with arbitrary (also excessive) backup amounts", "why_tests_cant": "Malformed files can contain any backups; the invariant must hold in every reachable cursor state.", "anchors": ["Sourcecode/private/mx/impl/MeasureReader.cpp: parseBackup"]}
{"id": "C05", "title": "One time scale for the whole score, exact rescaling", "statement": "After loading, ticksPerQuarter is the least common multiple of all divisions values in the file, and every integral duration is rescaled to it exactly (duration/divisions = ticks/ticksPerQuarter as rational numbers, no rounding).", "quantifier": "every list of positive integral divisions and every integral duration", "why_tests_cant": "Rounding drift would appear only for unusual combinations of divisions values (e.g. 7 against 480).", "anchors": ["Sourcecode/private/mx/impl/ScoreReader.cpp: findMaxDivisionsPerQuarter", "Sourcecode/private/mx/impl/Cursor.cpp: convertDurationToGlobalTickScale", "Sourcecode/private/mx/impl/LcmGcd.cpp"]}
{"id": "C06", "title": "gcd and lcm utilities are mathematically correct", "statement": "greatestCommonDivisor and leastCommonMultiple of two numbers, a list or a set return the mathematical gcd and lcm of the absolute values whenever they return, and throw exactly for the documented zero cases; overflow is the only other failure.", "quantifier": "all integers, all lists and all sets of integers", "why_tests_cant": "An unbounded arithmetic statement; a sample cannot exclude a wrong sign or a wrong zero case.", "anchors": ["Sourcecode/private/mx/impl/LcmGcd.cpp", "Sourcecode/private/mx/impl/LcmGcd.h"]}
{"id": "C07", "title": "Document ids are unique and never reused", "statement": "Every successful createFromFile/createFromStream/createFromScore returns an id different from every id returned before, including ids of documents that have been destroyed, under every interleaving of calling threads (while the 32 bit counter does not overflow).", "quantifier": "every finite history of calls by any number of threads", "why_tests_cant": "Id reuse after destroy or across threads depends on the complete call history and schedule.", "anchors": ["Sourcecode/private/mx/api/DocumentManager.cpp: DocumentManager", "Sourcecode/include/mx/api/DocumentManager.h"]}
{"id": "C08", "title": "DocumentManager behaves as a map from ids to documents", "statement": "getData(id)/writeToStream(id) see exactly the document created under id and not yet destroyed; other operations never affect it; unknown or destroyed ids give a default ScoreData / write nothing; a failing create leaves the manager unchanged; destroying twice is harmless.", "quantifier": "every finite history of operations on the manager", "why_tests_cant": "A refinement statement about all histories; unit tests exercise create-use-destroy only.", "anchors": ["Sourcecode/private/mx/api/DocumentManager.cpp"]}
{"id": "C09", "title": "Partwise/timewise conversion round trip", "statement": "Converting a partwise score to timewise and back to partwise gives the same parts in the same order, with the same measures in the same order and the same music in each.", "quantifier": "every rectangular score (the parts of the part list in that order, each once, with the same number of measures); exact equality where the measure attributes agree between the parts", "why_tests_cant": "Index arithmetic over two nested loops for any number of parts and measures; ragged scores and duplicated ids are the corners tests do not reach.", "anchors": ["Sourcecode/private/mx/core/ScoreConversions.cpp: partwiseTimewise, timewisePartwise", "Sourcecode/private/mx/core/Document.cpp: convertContents"]}
{"id": "C10", "title": "Reading a document's data does not change the document", "statement": "getData on a timewise document converts it to partwise internally and back: afterwards the stored document has the same contents (as music) as before, so repeated getData calls return the same data.", "quantifier": "every rectangular timewise document whose data can be read, and every number of getData calls", "why_tests_cant": "The mutation is hidden in a const-looking query, its effect accumulates over calls.", "anchors": ["Sourcecode/private/mx/api/DocumentManager.cpp: getData", "Sourcecode/private/mx/core/ScoreConversions.cpp"]}
{"id": "C11", "title": "A Date is always a real calendar date", "statement": "After any sequence of constructors, setters, addDays, addMonths, addYears, parse and setValue a Date holds a valid Gregorian date with year 1..9999.", "quantifier": "every finite sequence of operations with arbitrary int arguments (outside signed overflow)", "why_tests_cant": "Day-of-month clamping interacts with month, year and leap year changes; the number of states is 3.6 million and arguments are unbounded.", "anchors": ["Sourcecode/private/mx/core/Date.cpp: Date"]}
{"id": "C12", "title": "Date arithmetic follows the Gregorian calendar", "statement": "addDays(n) moves to the date n days later or earlier in the Gregorian calendar (saturating at 0001-01-01 and 9999-12-31) and agrees with an independent day-number formula; adding n and then -n returns to the start when no saturation happens; getDayOfTheWeek agrees with the day number modulo 7.", "quantifier": "every valid date and every int", "why_tests_cant": "Loops over months and leap years for every start and any distance.", "anchors": ["Sourcecode/private/mx/core/Date.cpp: addDays, getDayOfTheWeek, isLeapYear, daysInMonth"]}
{"id": "C13", "title": "Date text round trip", "statement": "parse(toString(d)) restores d for every valid date, toString always has the shape yyyy-mm-dd with ten characters, and parse accepts nothing but such valid dates, leaving the value unchanged otherwise.", "quantifier": "every valid date; every string", "why_tests_cant": "All strings are the domain of parse.", "anchors": ["Sourcecode/private/mx/core/Date.cpp: Date::parse, toStream"]}
{"id": "C14", "title": "Date comparison is a total order agreeing with the calendar", "statement": "The comparison operators of Date form a total order, consistent with each other, and d < e exactly when d is an earlier day.", "quantifier": "all pairs and triples of valid dates", "why_tests_cant": "Relational statement over pairs and triples.", "anchors": ["Sourcecode/private/mx/core/Date.cpp: operator<, compare"]}
{"id": "C15", "title": "Color text round trip and rejection", "statement": "parse(toString(c)) restores the colour (type and all channels) of every colour; parse accepts exactly '#RRGGBB' and '#AARRGGBB' in upper case hex and otherwise returns false and leaves the colour unchanged; channels always stay within 0..255.", "quantifier": "every colour, every string, every int channel", "why_tests_cant": "2^32 colours and all strings.", "anchors": ["Sourcecode/private/mx/core/Color.cpp: Color"]}
{"id": "C16", "title": "Bounded integers never leave their range", "statement": "Every bounded integer type (Midi16, Midi128, BeamLevel, NumberLevel, OctaveValue, ...) holds a value within its documented range after any sequence of construction, setValue and parse; in-range values are stored unchanged and out-of-range values become the nearest bound.", "quantifier": "every range type, every int, every string, every history", "why_tests_cant": "All ints and all operation histories.", "anchors": ["Sourcecode/private/mx/core/Integers.cpp"]}
{"id": "C17", "title": "Integer text round trip", "statement": "The textual form of every Integer value parses back to the same value, parsing rejects text that is not an integer (with optional surrounding blanks) and a rejected parse leaves the value unchanged.", "quantifier": "every 32 bit int, every string", "why_tests_cant": "All ints and strings.", "anchors": ["Sourcecode/private/mx/core/Integers.cpp: Integer::parse, toStream"]}
{"id": "C18", "title": "Bounded decimals never leave their range", "statement": "NonNegativeDecimal, Percent, PositiveDecimal, RotationDegrees, TrillBeats etc. hold a value within their documented range after any history, values within the range are kept and values outside become the bound (exclusive bounds: the bound plus or minus 0.000001).", "quantifier": "every range type, every real value, every history", "why_tests_cant": "Unbounded domain.", "anchors": ["Sourcecode/private/mx/core/Decimals.cpp: DecimalRange, min/max policies"]}
{"id": "C19", "title": "Decimal output is the nearest six-digit decimal", "statement": "The text written for a decimal value denotes a number that differs from the value by at most half a unit of the sixth decimal digit (plus the 1e-7-of-a-unit tie bias), has no trailing zeros, no trailing point, never '-0', and values with at most six decimals are written exactly and parse back to themselves.", "quantifier": "every value in the expressible range (real arithmetic)", "why_tests_cant": "Carry propagation (0.9999996) and leading zeros of the fraction hit only special values.", "anchors": ["Sourcecode/private/mx/core/Decimals.cpp: PreciseDecimal::setValue, toStream"]}
{"id": "C20", "title": "Comma separated integer lists are normalised and round trip", "statement": "CommaSeparatedListOfPositiveIntegers always holds a strictly increasing list of positive integers, its text parses back to the same list with or without spaces, and setting, parsing or re-parsing never admits zero or negative numbers.", "quantifier": "every list of ints and every string", "why_tests_cant": "All lists and strings.", "anchors": ["Sourcecode/private/mx/core/CommaSeparatedListOfPositiveIntegers / CommaSeparatedPositiveIntegers.cpp"]}
{"id": "C21", "title": "Comma separated text round trip", "statement": "CommaSeparatedText: writing a list of tokens and parsing it again yields the same list.", "quantifier": "every list of comma free, normalised tokens", "why_tests_cant": "The empty-token corner cases are not visible on ordinary samples.", "anchors": ["Sourcecode/private/mx/core/CommaSeparatedText.cpp"]}
{"id": "C22", "title": "Union attribute types round trip", "statement": "FontSize, YesNoNumber, NumberOrNormal and PositiveIntegerOrEmpty: the text of any value parses back to the same alternative with the same value, and text that belongs to no alternative is rejected with the value unchanged.", "quantifier": "every value of every union type, every string", "why_tests_cant": "Ambiguity between alternatives is a property of all strings.", "anchors": ["Sourcecode/private/mx/core/FontSize.cpp", "Sourcecode/private/mx/core/YesNoNumber.cpp", "Sourcecode/private/mx/core/NumberOrNormal.cpp", "Sourcecode/private/mx/core/PositiveIntegerOrEmpty.cpp"]}
{"id": "C23", "title": "Enumeration text tables are faithful", "statement": "For every MusicXML enumeration type, parsing the text of a value gives the value back, distinct values have distinct texts, and text outside the table is handled as documented (default value).", "quantifier": "all enumeration types, all their values, all strings", "why_tests_cant": "Several thousand table rows and all other strings.", "anchors": ["Sourcecode/private/mx/core/Enums.cpp", "Sourcecode/private/mx/core/EnumsBuiltin.cpp"]}
{"id": "C24", "title": "API and core enumerations correspond one to one", "statement": "Writing an api enumeration value (step, duration name, accidental, clef symbol, articulation, ornament, dynamics, barline, ...) and reading it back gives the same value, except for the documented 'unspecified' sentinels; every core value is read as some api value.", "quantifier": "all values of all converter tables", "why_tests_cant": "Total coverage of all tables in both directions.", "anchors": ["Sourcecode/private/mx/impl/Converter.cpp: Converter"]}
{"id": "C25", "title": "Token normalisation", "statement": "A token never starts or ends with whitespace and contains no run of two whitespace characters and no tab or newline; already normalised text is unchanged; normalising twice is the same as once; the sequence of words is preserved.", "quantifier": "every string", "why_tests_cant": "All strings.", "anchors": ["Sourcecode/private/mx/core/XsToken.cpp", "Sourcecode/private/mx/core/StringUtils.h: trim, reduce"]}
{"id": "C26", "title": "XML text escaping is injective and leaves no markup", "statement": "Escaped text contains no raw '<' or '>' and every '&' starts one of the three entities; standard XML unescaping gives the original text back.", "quantifier": "every string", "why_tests_cant": "All strings, including those which contain text looking like entities.", "anchors": ["Sourcecode/private/mx/core/XsString.cpp: toStream"]}
{"id": "C27", "title": "Identifiers are always legal names", "statement": "Whatever string is given, an XsID value is non-empty and a legal XML NCName, and legal names are kept unchanged.", "quantifier": "every string", "why_tests_cant": "All strings.", "anchors": ["Sourcecode/private/mx/core/XsID.cpp"]}
{"id": "C28", "title": "Transposition round trip", "statement": "The transposition of a part (chromatic, diatonic) survives writing and reading.", "quantifier": "every chromatic and diatonic pair of ints", "why_tests_cant": "Division of negative numbers by 12 and the guessed diatonic make errors visible only at particular pairs.", "anchors": ["Sourcecode/private/mx/impl/Converter.cpp: convertToTranspose, convertToTransposeData, figureOutDiatonic"]}
{"id": "C29", "title": "Part groups survive write then read", "statement": "Part groups (nested, overlapping, adjacent) of a score come back from a written document with the same first part, last part, number, name and bracket type.", "quantifier": "every list of part groups with distinct numbers over any number of parts", "why_tests_cant": "Starts and stops are linearised into the part list and matched by a stack on reading; nesting and overlap of arbitrary depth.", "anchors": ["Sourcecode/private/mx/impl/ScoreWriter.cpp: addScorePart, makePartGroupStart, makePartGroupStop", "Sourcecode/private/mx/impl/ScoreReader.cpp: reconcileParts, handlePartGroup, startPartGroup, stopPartGroup"]}
{"id": "C30", "title": "Pitch survives write then read", "statement": "Step, alteration, cents and octave of a pitched note come back unchanged from the written document (octaves 0..9).", "quantifier": "every step, every alter, every cents value of the same sign below 100 and every octave 0..9", "why_tests_cant": "Mixed sign of alter and cents and truncation towards zero.", "anchors": ["Sourcecode/private/mx/impl/Converter.cpp: convertToAlter, convertToSemitonesAndCents", "Sourcecode/private/mx/impl/NoteWriter.cpp: setFullNoteTypeChoice", "Sourcecode/private/mx/impl/NoteReader.cpp"]}
{"id": "C31", "title": "Beams survive write then read", "statement": "The beam list of a note comes back in order and unchanged.", "quantifier": "every list of beams", "why_tests_cant": "The level numbers are clamped to 8 and reassembled through a map on reading; longer lists behave differently.", "anchors": ["Sourcecode/private/mx/impl/NoteWriter.cpp: getNote", "Sourcecode/private/mx/impl/NoteReader.cpp: setBeams"]}
{"id": "C32", "title": "Time signatures persist until changed", "statement": "On reading, a measure without an explicit time signature has the time signature of the closest previous measure with one, marked implicit; on writing, implicit signatures are not written; write then read gives back the same list.", "quantifier": "every sequence of measures", "why_tests_cant": "A statement about all histories of measures.", "anchors": ["Sourcecode/private/mx/impl/MeasureReader.cpp: parseTimeSignature", "Sourcecode/private/mx/impl/TimeReader.cpp", "Sourcecode/private/mx/impl/PropertiesWriter.cpp: writeTime", "Sourcecode/private/mx/impl/PartReader.cpp"]}
{"id": "C33", "title": "No note is lost when voices are assigned on reading", "statement": "Grouping the notes of a measure into staves and voices keeps every note exactly once, keeps the order of notes in a voice, and honours explicit voice numbers where present.", "quantifier": "every sequence of notes with arbitrary staff and voice numbers", "why_tests_cant": "Voice consolidation moves notes between maps in three passes.", "anchors": ["Sourcecode/private/mx/impl/MeasureReader.cpp: insertNoteData, consolidateVoices"]}
{"id": "C34", "title": "Sorting a score is a permutation into time order", "statement": "ScoreData::sort leaves every list of timed items of a measure (notes, directions, clefs, keys, barlines) a permutation of itself in ascending time order, keeps the order of items at the same time, and sorting twice changes nothing.", "quantifier": "every score", "why_tests_cant": "All lists.", "anchors": ["Sourcecode/private/mx/api/ScoreData.cpp: sort", "Sourcecode/include/mx/api/ScoreData.h"]}
{"id": "C35", "title": "Location validity is decided correctly", "statement": "isValid(location, score) returns true exactly when the part, the measure of the part and the staff of the measure that the location names exist in the score, and never throws.", "quantifier": "every score and every location", "why_tests_cant": "Empty vectors and negative indices.", "anchors": ["Sourcecode/private/mx/api/MeasureLocation.cpp"]}
{"id": "C36", "title": "Only canonical integers are recognised", "statement": "Text is taken as a number (voice, tempo, beats) exactly when it is the canonical decimal form of a 32 bit int.", "quantifier": "every string", "why_tests_cant": "All strings.", "anchors": ["Sourcecode/private/mx/utility/StringToInt.h"]}
{"id": "C37", "title": "Misc data of a note survives write then read", "statement": "The list of misc strings attached to a note is recovered from the written document.", "quantifier": "every list of strings without commas", "why_tests_cant": "Encoding in a comma separated list with a prefix mark: all lists including empty ones and strings which look like the mark.", "anchors": ["Sourcecode/private/mx/impl/NoteWriter.cpp: setMiscData", "Sourcecode/private/mx/impl/NoteFunctions.cpp: parseMiscData"]}
{"id": "C38", "title": "Mark categories are consistent", "statement": "Every MarkType belongs to at most one of the categories articulation, dynamic, ornament, technical, fermata, pedal, tremolo is a sub-category of ornament, and the number of tremolo slashes is 1..5 exactly for tremolos.", "quantifier": "all mark types", "why_tests_cant": "Complete case analysis over the enumeration.", "anchors": ["Sourcecode/private/mx/api/MarkData.cpp"]}
{"id": "C39", "title": "Clef setters and predicates agree", "statement": "After ClefData::setX the predicate isX and only isX holds (of treble, bass, alto, tenor, ...), and clefs survive write then read.", "quantifier": "all clef setters and every clef value", "why_tests_cant": "Complete cross product.", "anchors": ["Sourcecode/private/mx/api/ClefData.cpp", "Sourcecode/private/mx/impl/PropertiesWriter.cpp: writeClef", "Sourcecode/private/mx/impl/MeasureReader.cpp: importClef"]}
{"id": "C40", "title": "Key signatures survive write then read", "statement": "Fifths, cancel, mode and staff index of a traditional key come back unchanged, as do custom (non-traditional) keys.", "quantifier": "every key", "why_tests_cant": "All fifths and cancel values; interaction of staff index -1 with the number attribute.", "anchors": ["Sourcecode/private/mx/impl/PropertiesWriter.cpp: writeKey", "Sourcecode/private/mx/impl/MeasureReader.cpp: parseProperties"]}
{"id": "C41", "title": "Fermata, ottava and other composite marks survive write then read", "statement": "Marks that are encoded by combinations of MusicXML attributes (fermata shape and direction, ottava type and size, tuplet numbers, harmony degrees) decode to the same mark.", "quantifier": "all such marks", "why_tests_cant": "Full product of shapes and directions.", "anchors": ["Sourcecode/private/mx/impl/NotationsWriter.cpp", "Sourcecode/private/mx/impl/NotationsReader / NoteFunctions.cpp: parseNotations", "Sourcecode/private/mx/impl/DirectionWriter.cpp", "Sourcecode/private/mx/impl/DirectionReader.cpp"]}
{"id": "C42", "title": "Positions and curves survive write then read", "statement": "Optional position attributes (default/relative x and y, placement) and curve numbers of elements come back exactly: specified stays specified with the same value, unspecified stays unspecified.", "quantifier": "every combination of present and absent attributes and values", "why_tests_cant": "2^n combinations with unbounded values.", "anchors": ["Sourcecode/private/mx/impl/PositionFunctions.h", "Sourcecode/private/mx/impl/CurveFunctions.h"]}
{"id": "C43", "title": "Measure numbers survive write then read", "statement": "The number text of each measure is restored: empty when it is the ordinary index, otherwise the same text (with white space normalised, as for every XML token).", "quantifier": "every measure index and number text", "why_tests_cant": "All strings and indices.", "anchors": ["Sourcecode/private/mx/impl/MeasureWriter.cpp: writeMeasureGlobals", "Sourcecode/private/mx/impl/MeasureReader.cpp: getMeasureData"]}
{"id": "C44", "title": "Tempo, tuplet and duration arithmetic is exact", "statement": "Note type names with dots correspond to the standard tick length: the name derived from a duration, when one is derived, has exactly that duration.", "quantifier": "every ticks-per-quarter value and duration", "why_tests_cant": "All pairs.", "anchors": ["Sourcecode/private/mx/impl/NoteFunctions.cpp: deriveNoteTypeFromDurationValue", "Sourcecode/private/mx/api/DurationData.cpp"]}
{"id": "C45", "title": "Directions keep their time on write then read", "statement": "A direction placed at any tick of a measure is found at the same tick after write then read.", "quantifier": "every direction time, offset and divisions", "why_tests_cant": "Offsets are relative to a moving cursor.", "anchors": ["Sourcecode/private/mx/impl/MeasureWriter.cpp: writeDirections", "Sourcecode/private/mx/impl/DirectionWriter.cpp", "Sourcecode/private/mx/impl/DirectionReader.cpp: updateTimeForOffset"]}
{"id": "C46", "title": "Page and system layout survive write then read", "statement": "Page size, margins for odd/even/both pages, system margins and distances come back unchanged when specified and stay unspecified otherwise.", "quantifier": "every combination of optional layout fields", "why_tests_cant": "2^n combinations.", "anchors": ["Sourcecode/private/mx/impl/LayoutFunctions.cpp"]}
{"id": "C47", "title": "MIDI instrument data survive write then read", "statement": "Channel, program, bank, volume and pan of an instrument come back unchanged for values in the MIDI range.", "quantifier": "every instrument", "why_tests_cant": "Off-by-one and clamping at both ends.", "anchors": ["Sourcecode/private/mx/impl/PartWriter.cpp: getScorePart", "Sourcecode/private/mx/impl/PartReader.cpp: parseMidiInstrument"]}
{"id": "C48", "title": "Number of staves is sufficient", "statement": "After loading, every note and direction of a part refers to a staff that exists in every measure of that part.", "quantifier": "every part", "why_tests_cant": "All combinations of staff declarations and staff references.", "anchors": ["Sourcecode/private/mx/impl/PartReader.cpp: calculateNumStaves", "Sourcecode/private/mx/impl/StaffFunctions.cpp", "Sourcecode/private/mx/impl/MeasureReader.cpp"]}
{"id": "C49", "title": "Barlines survive write then read", "statement": "Barlines at the left (time 0) and right (end) of a measure come back unchanged in the same order, and no barline of a measure in time order is lost.", "quantifier": "every measure and every list of barlines", "why_tests_cant": "Interaction of barline time, location attribute and the position of the reader at the end of the notes.", "anchors": ["Sourcecode/private/mx/impl/MeasureWriter.cpp: writeBarlines", "Sourcecode/private/mx/impl/MeasureReader.cpp: parseBarline"]}
{"id": "C50", "title": "Clefs stay on their staff", "statement": "After write then read each staff of a measure has the same clefs in the same order; no clef is lost, duplicated or given to another staff, wherever clef changes stand relative to the notes.", "quantifier": "every measure and every list of clefs per staff", "why_tests_cant": "Clefs are buffered and flushed between notes of all voices; staff numbers are omitted for a single staff.", "anchors": ["Sourcecode/private/mx/impl/MeasureWriter.cpp: writeMeasureGlobals, writeVoices", "Sourcecode/private/mx/impl/PropertiesWriter.cpp: writeClef", "Sourcecode/private/mx/impl/MeasureReader.cpp: importClef"]}
{"id": "C51", "title": "Decimals accept exactly decimal numerals", "statement": "Parsing a decimal-valued type (tenths, percent, divisions, ...) accepts a text exactly when it is a decimal numeral, with an optional sign, point, exponent and surrounding white space, and then assigns the number the text denotes; every other text leaves the object unchanged.", "quantifier": "every text and every object", "why_tests_cant": "The set of texts is infinite and stream extraction has many corner cases (lone signs, points, exponents without digits).", "anchors": ["Sourcecode/private/mx/core/Decimals.cpp: Decimal::parse"]}
{"id": "C52", "title": "Written attribute values are valid XML", "statement": "Whatever text the user stores in an attribute or an element value, the characters written between the quotes (or tags) can be read back by an XML parser to exactly that text.", "quantifier": "every text", "why_tests_cant": "Escaping must hold for every character in every position.", "anchors": ["Sourcecode/private/mx/core/XsString.cpp: toStream", "Sourcecode/private/mx/core/AttributesInterface.h: streamAttribute"]}
{"id": "C53", "title": "Open text values keep the user's text", "statement": "A dynamics, mode, distance type or line width type value set from any text is written as the same text; named values and own texts are distinguished, for every history of setting texts and enumerators.", "quantifier": "every text and every sequence of setValue calls", "why_tests_cant": "Infinitely many texts and histories; stale custom text may survive a later change.", "anchors": ["Sourcecode/private/mx/core/Enums.cpp: DynamicsValue, ModeValue, DistanceType, LineWidthType"]}
{"id": "C54", "title": "Attributes of elements survive write then read", "statement": "For every element, the attributes set on it are written as a well-formed list of XML attributes, and reading that list sets exactly the same attributes to the same values and reports success; attributes with unknown names are ignored; a missing required attribute is reported as a failure.", "quantifier": "every element with attributes, every combination of attributes, every value that XML can carry", "why_tests_cant": "175 attribute structures with up to 30 attributes each: exponentially many combinations and infinitely many values.", "anchors": ["Sourcecode/private/mx/core/elements/*Attributes.cpp: toStream, fromXElementImpl", "Sourcecode/private/mx/core/AttributesInterface.h: streamAttribute", "Sourcecode/private/mx/core/FromXElement.cpp: parseAttribute"]}
{"id": "C55", "title": "Elements have the attributes of the MusicXML schema", "statement": "Every element writes only attributes that the MusicXML schema gives to it, with the value type of the schema, and always writes those that the schema requires; every attribute that the schema gives to an element can be set on it.", "quantifier": "every element class and every attribute in the schema", "why_tests_cant": "Two large tables (366 element classes, 388 schema elements) must agree everywhere; tests only touch a few entries.", "anchors": ["Sourcecode/private/mx/core/elements/*.cpp", "Documents/musicxml.xsd"]}
{"id": "C56", "title": "Reading accepts valid attribute values", "statement": "Reading an attribute with an enumeration, an integer or a colour succeeds exactly when the value is valid for its type in the schema, and gives the value it denotes.", "quantifier": "every text", "why_tests_cant": "Infinitely many texts; a wrong rejection makes a whole valid document unreadable.", "anchors": ["Sourcecode/private/mx/core/FromXElement.cpp: parseAttribute", "Sourcecode/private/mx/api/DocumentManager.cpp: createFromStream"]}
{"id": "C57", "title": "Queries of a score", "statement": "The number of measures of a score is the largest number of measures of its parts, and looking a part up by its id gives the first part with that id, or the end of the list when there is none.", "quantifier": "every score", "why_tests_cant": "Any number of parts with any numbers of measures, equal ids included.", "anchors": ["Sourcecode/private/mx/api/ScoreData.cpp: getNumMeasures", "Sourcecode/private/mx/impl/ScoreReader.cpp"]}
{"id": "C58", "title": "Details of a note survive write then read", "statement": "Kind (normal, cue, grace), rest or sound, ties, duration name and dots, time modification, notehead, stem, accidental with its marks and the display position of rests and unpitched notes come back unchanged; a second write then read changes nothing more.", "quantifier": "every note, every voice it stands in, every duration", "why_tests_cant": "The combinations of the details are too many to enumerate and the numbers are unbounded.", "anchors": ["Sourcecode/private/mx/impl/NoteWriter.cpp: getNote", "Sourcecode/private/mx/impl/NoteReader.cpp", "Sourcecode/private/mx/impl/NoteFunctions.cpp: parseNote"]}
{"id": "C59", "title": "The curves of a note are stable", "statement": "The slurs and ties of a note are the same however often the score is written and read again.", "quantifier": "every note, every list of curves and any number of rounds", "why_tests_cant": "An effect that is added once per round is invisible to a test of a single round; the number of rounds is unbounded.", "anchors": ["Sourcecode/private/mx/impl/NotationsWriter.cpp: getNotations", "Sourcecode/private/mx/impl/NoteWriter.cpp: setNotations", "Sourcecode/private/mx/impl/CurveFunctions.h"]}
{"id": "C60", "title": "A whole score survives write then read", "statement": "Loading a score that was written gives the same ticks per quarter, the same number of parts in the same order, and for each part the same measures in the same order with the same staves, voices, notes, directions, clefs and barlines.", "quantifier": "every score: any number of parts, measures, staves, voices, notes; any ids and time scales", "why_tests_cant": "The result for one measure depends on state carried over measures and parts (number of staves, divisions, ids), so no finite set of scores covers the histories.", "anchors": ["Sourcecode/private/mx/impl/ScoreWriter.cpp: getScorePartwise", "Sourcecode/private/mx/impl/PartWriter.cpp: writeMeasures", "Sourcecode/private/mx/impl/PartReader.cpp: getPartData", "Sourcecode/private/mx/impl/ScoreReader.cpp: getScoreData, reconcileParts, findPartwisePart"]}
{"id": "C61", "title": "Directions and chord symbols survive write then read", "statement": "Dynamics, pedal marks, wedges, ottavas, brackets, tempos, words, segnos, codas, rehearsal marks and chord symbols of a direction come back at the same time, in the same order and with the same details.", "quantifier": "every direction with any number of marks of each kind, any tick, any position of the cursor, any staff", "why_tests_cant": "A direction combines thirteen lists of any length with positions, fonts and numbers; the offset depends on the tick reached so far.", "anchors": ["Sourcecode/private/mx/impl/DirectionWriter.cpp: getDirectionLikeThings", "Sourcecode/private/mx/impl/DirectionReader.cpp: getDirectionData", "Sourcecode/private/mx/impl/MetronomeReader.cpp: getTempoData"]}
{"id": "C62", "title": "A direction that has been loaded can be written again", "statement": "Loading a valid document succeeds, and getting the score data and writing them again does not throw, whatever directions and chord symbols the document has.", "quantifier": "every direction and chord symbol of a document", "why_tests_cant": "The documents are infinitely many; an exception in a rare branch (a tempo that is not a number) shows only for that input.", "anchors": ["Sourcecode/private/mx/impl/DirectionWriter.cpp: getDirectionLikeThings", "Sourcecode/private/mx/impl/MetronomeReader.cpp: getTempoData"]}
{"id": "C63", "title": "Documents keep to the content models of the schema", "statement": "Whatever methods of the element classes a program calls, in whatever order, the written document has only child elements that the MusicXML schema allows at their place, in the number and order it demands.", "quantifier": "every tree of element objects, every history of calls of setters, add, remove, clear and choice methods", "why_tests_cant": "138 classes with children, 390 declarations, unbounded trees and histories: a member out of order or a list that can be emptied shows only for some combination.", "anchors": ["Sourcecode/private/mx/core/elements/*.cpp: streamContents, hasContents, add*, remove*, clear*, setChoice", "Documents/musicxml.xsd", "Sourcecode/private/mx/core/ElementInterface.cpp: toStream"]}
{"id": "C64", "title": "Nothing that is set is dropped when an element is written", "statement": "Every child that is in use (its flag is on, its choice is selected, it is in a list) appears in the written element, and no other child does, although classes decide by a separate test whether they have contents at all.", "quantifier": "every tree of element objects built by any history of calls", "why_tests_cant": "The test for contents and the writing of contents are separate hand-written code in 138 classes; they must agree for every combination of flags, choices and lists.", "anchors": ["Sourcecode/private/mx/core/elements/*.cpp: hasContents, streamContents", "Sourcecode/private/mx/core/ElementInterface.cpp: streamWithoutProcessingInstructions"]}
{"id": "C65", "title": "Limited lists of children stay within their limits", "statement": "A note never gets more than eight beams, a barline more than two fermatas, a page layout more than two margins; a direction never loses its last direction type, a part its last measure, a score its last part.", "quantifier": "every history of add, remove and clear calls", "why_tests_cant": "Histories are unbounded; an off-by-one in a guard shows only at the limit.", "anchors": ["Sourcecode/private/mx/core/elements/Note.cpp: addBeam", "Sourcecode/private/mx/core/elements/Barline.cpp: addFermata", "Sourcecode/private/mx/core/elements/Direction.cpp: removeDirectionType"]}
{"id": "C66", "title": "A document that has been saved can be loaded, and saves as the same document", "statement": "Whatever document a program has built with the element classes: saving it and loading the file succeeds, the new document is of the same kind (partwise or timewise), and saving it writes the same elements with the same attributes and values in the same order.", "quantifier": "every tree of element objects of every class, built by any history of calls; every document of either kind", "why_tests_cant": "The readers of the 138 classes are hand-written loops over the children, separate from the writers; they must agree for every combination of flags, choices, lists and neighbours.", "anchors": ["Sourcecode/private/mx/core/elements/*.cpp: fromXElementImpl", "Sourcecode/private/mx/core/FromXElement.h: importElement, importElementSet, importGroup", "Sourcecode/private/mx/core/Document.cpp: fromXDoc, toXDoc", "Sourcecode/private/mx/api/DocumentManager.cpp: createFromStream"]}
{"id": "C67", "title": "Valid documents of other programs are loaded without loss", "statement": "Every document that is valid under the MusicXML schema can be loaded, and saving it again writes the same elements with the same attributes and values in the same order.", "quantifier": "every valid document, partwise or timewise, of any size and depth; every valid element of every kind", "why_tests_cant": "There are infinitely many valid documents; files from other programs use combinations that no test file of the project has.", "anchors": ["Sourcecode/private/mx/core/elements/*.cpp: fromXElementImpl, streamContents", "Sourcecode/private/mx/core/Document.cpp: fromXDoc, toXDoc", "Documents/musicxml.xsd", "Sourcecode/private/mx/api/DocumentManager.cpp: createFromFile, createFromStream"]}
{"id": "C68", "title": "Whatever is loaded, what is saved keeps to the schema", "statement": "Take any XML document at all, valid or not, with unknown, missing, repeated or misplaced elements. If it can be loaded, then saving it writes only elements of the MusicXML schema, each with the children the schema allows in the number and order it demands.", "quantifier": "every tree of XML elements; every document that is loaded from it; every element class on its own", "why_tests_cant": "Input files are outside the control of the program; no set of malformed files covers all the ways in which children can be missing, repeated or out of place in 138 classes.", "anchors": ["Sourcecode/private/mx/core/elements/*.cpp: fromXElementImpl, streamContents", "Sourcecode/private/mx/core/FromXElement.h: importElementSet", "Sourcecode/private/mx/core/Document.cpp: fromXDoc, toXDoc", "Documents/musicxml.xsd"]}
{"id": "C69", "title": "Elements of unknown names", "statement": "The objects of twelve classes (among them notes, notations, technical marks, articulations and parts) refuse every element that has a child of a name the schema does not allow there, and a document with such a child in a note, in the notations of a note or in their technical marks and articulations cannot be loaded; the objects of 33 other classes (among them measures) behave exactly as if the children of unknown names were not there.", "quantifier": "all elements with any children, for the 45 classes; all documents with such a child on the ways listed in the specification", "why_tests_cant": "Documents of later versions of MusicXML have elements that did not exist before; where among other children they occur, how often and how deep, is unbounded.", "anchors": ["Sourcecode/private/mx/core/elements/*.cpp: fromXElementImpl", "Sourcecode/private/mx/core/elements/Note.cpp: fromXElementImpl", "Sourcecode/private/mx/core/elements/PartwiseMeasure.cpp: fromXElementImpl", "Sourcecode/private/mx/core/FromXElement.h: importElementSet", "Sourcecode/private/mx/api/DocumentManager.cpp: createFromFile, createFromStream"]}
{"id": "C70", "title": "Titles, creators, rights, encoding and page texts", "statement": "Titles and numbers of work and movement, composer, lyricist, copyright, encoder, encoding date, description, software, supported items, miscellaneous fields and page texts of a score come back after writing and reading, each in its own field; the date in the file is always a day of the calendar; from any document the composer is the first creator of that type, otherwise the last one without a type.", "quantifier": "all texts of any length and characters in all fields, all triples of numbers as dates, all lists of software, supported items, miscellaneous fields and page texts; all documents for the reader", "why_tests_cant": "The fields can be filled or empty in any combination, dates are three independent integers, and foreign documents list any number of creators of any types in any order.", "anchors": ["Sourcecode/private/mx/impl/ScoreWriter.cpp: ScoreWriter::getScorePartwise", "Sourcecode/private/mx/impl/ScoreReader.cpp: ScoreReader::getScoreData", "Sourcecode/private/mx/impl/EncodingFunctions.cpp: createEncoding", "Sourcecode/private/mx/impl/PageTextFunctions.cpp: createPageTextItems", "Sourcecode/include/mx/api/ScoreData.h: ScoreData", "Sourcecode/include/mx/api/EncodingData.h: EncodingData"]}
{"id": "C71", "title": "Nothing of a measure is lost, whatever the times are", "statement": "When a measure is written and read back, every staff has exactly the notes, directions and clefs it had before, each as often as before, with kind, length, voice and content, whatever times, lengths and chord flags the notes have; no barline is lost; all keys of staves are written for their staff, and the keys of the measure are written in order.", "quantifier": "all measures with any number of staves, voices, notes, directions, clefs, keys and barlines, with any integers as times and lengths, any chord flags, in any order", "why_tests_cant": "Notes may overlap, go back in time, have negative times or lengths or inconsistent chord flags; only an argument about the writer's loops shows that none of these inputs drops or duplicates an item.", "anchors": ["Sourcecode/private/mx/impl/MeasureWriter.cpp: MeasureWriter::getPartwiseMeasure, writeVoices, writeDirections", "Sourcecode/private/mx/impl/MeasureReader.cpp: MeasureReader::getMeasureData", "Sourcecode/include/mx/api/MeasureData.h: MeasureData"]}
{"id": "C72", "title": "A document saved as text is loaded again as the same document", "statement": "A document whose names are XML names and that has no double quotes in attribute values, no '?>' in processing instructions and no zero bytes is saved as a well formed XML text; loading the text gives the same elements, in the same order and nesting, with the same attributes, texts and processing instructions, except for the changes of white space that XML prescribes, texts of nothing but white space and instructions inside an element without children. A document loaded from a saved text is saved as the same text, and different documents are saved as different texts.", "quantifier": "all document trees of any depth, any number of children, attributes and processing instructions, with any bytes in texts", "why_tests_cant": "Escaping, indentation and white space handling by the writer and by the parser have to fit together for every text and every tree; a test sees only a few texts.", "anchors": ["Sourcecode/private/mx/core/ElementInterface.cpp: ElementInterface::toStream", "Sourcecode/private/mx/core/Document.cpp: Document::toStream", "Sourcecode/private/mx/core/XsString.cpp: toStream", "Sourcecode/private/mx/ezxml/src/private/private/PugiDoc.cpp: PugiDoc::loadStream, saveStream", "Sourcecode/private/mx/ezxml/src/private/private/pugixml.cpp: xml_parser::parse_tree, node_output"]}
{"id": "C73", "title": "However a file is spelt, the document it stands for is loaded", "statement": "Whether a well formed file has a byte order mark, an XML declaration, a document type, comments, any white space, single or double quotes, named, decimal or hexadecimal character references, CRLF or CR line ends, CDATA sections, empty element tags or pairs of tags: the elements, attributes, texts and processing instructions that are loaded are exactly those that the XML recommendation says the file stands for.", "quantifier": "all well formed files in UTF-8 without an internal DTD subset, of any size and depth", "why_tests_cant": "There are infinitely many spellings of each document and they can be combined at every place of a file; the files of the test suite use few of them.", "anchors": ["Sourcecode/private/mx/ezxml/src/private/private/pugixml.cpp: xml_parser::parse_tree, parse_exclamation, parse_question, strconv_escape, strconv_pcdata_impl, strconv_attribute_impl", "Sourcecode/private/mx/ezxml/src/private/private/PugiDoc.cpp: PugiDoc::loadStream", "Sourcecode/private/mx/core/Document.cpp: Document::fromXDoc"]}
{"id": "C74", "title": "A file that is loaded and saved stands for the same document", "statement": "A MusicXML file, however it is spelt, that keeps to the supported part of the schema is loaded; saving the loaded document gives a well formed XML file that stands for the same document: the same elements in the same order and nesting, with the same attributes and texts. A document that was built with the methods of the library, saved to a file and loaded from the file has the same elements, attributes and texts.", "quantifier": "all well formed UTF-8 files of the supported part of the schema, in all spellings, of any size; all documents that can be built", "why_tests_cant": "The property joins the parser, 138 element classes, the writer and the escaping; a test of it can try only some files, with the spellings and the elements they happen to have.", "anchors": ["Sourcecode/private/mx/api/DocumentManager.cpp: createFromFile, createFromStream, writeToFile, writeToStream", "Sourcecode/private/mx/core/Document.cpp: fromXDoc, toStream", "Sourcecode/private/mx/core/elements/*.cpp: fromXElementImpl, streamContents", "Sourcecode/private/mx/core/ElementInterface.cpp: fromXElement, toStream", "Sourcecode/private/mx/ezxml/src/private/private/pugixml.cpp: xml_parser::parse_tree"]}
{"id": "C75", "title": "Comparisons of score data mean what they say", "statement": "Two pieces of score data (from a colour to a whole score) compare equal exactly if they agree in all their parts at every depth, where positions and cents may differ by 10^-8; comparison is symmetric, every piece of data is equal to itself, and != is the opposite of ==.", "quantifier": "all values of the 65 structs of the api with lists, maps and optional parts of any size, nested to any depth, including infinities and NaN", "why_tests_cant": "There are infinitely many pairs of scores; a member that is forgotten in a comparison is noticed only by a pair that differs in nothing else.", "anchors": ["Sourcecode/include/mx/api/ApiEquality.h: areVectorsEqual, MXAPI_EQUALS_MEMBER, MXAPI_DOUBLES_EQUALS_MEMBER", "Sourcecode/include/mx/api/ScoreData.h: operator==", "Sourcecode/include/mx/api/NoteData.h: operator==", "Sourcecode/include/mx/api/WordsData.h: operator==", "Sourcecode/include/mx/api/DirectionData.h: operator==, isDirectionDataEmpty"]}
{"id": "C76", "title": "A document is stable after it has been loaded and saved once", "statement": "Every document that can be loaded, valid or with unknown, missing, repeated or misplaced elements, may be changed when it is saved for the first time; but what has been saved can be loaded again, and when it is saved then and ever after it stays the same. (For documents against the schema there are two exceptions: a misspelt notation and the order of the elements of a lyric.)", "quantifier": "all trees of elements of any size and depth, with any number of loads and saves", "why_tests_cant": "A document has a reader for each of its elements, and each reader can leave its object in a state that the writer spells in a way the reader refuses or reads differently; tests load and save some files, mostly valid ones, and compare the first result with what was loaded.", "anchors": ["Sourcecode/private/mx/core/Document.cpp: fromXDoc, toStream", "Sourcecode/private/mx/core/elements/*.cpp: fromXElementImpl, streamContents, hasContents", "Sourcecode/private/mx/core/ElementInterface.cpp: fromXElement, toStream", "Sourcecode/private/mx/core/elements/NotationsChoice.cpp: fromXElementImpl", "Sourcecode/private/mx/core/elements/Lyric.cpp: fromXElementImpl"]}
{"id": "C77", "title": "Elements may be read from several threads", "statement": "Any number of threads may call const functions of the same element objects at the same time, as happens when one score is saved or inspected by several threads: no two of them touch the same member at once when one of them writes, all calls that ask for the same part of an element return the same object and never a null pointer, the threads never block each other for good, and whatever order they take turns in, every element looks afterwards as it did before.", "quantifier": "all element objects, any number of threads that each make any number of calls, and every order in which their steps are interleaved", "why_tests_cant": "Parts of notes and measures are created only when they are first asked for, by functions that are const; whether two threads meet in such a function depends on the schedule, which a test does not control, and sanitizers only see the schedules that happen.", "anchors": ["Sourcecode/private/mx/utility/Lock.h: MX_MUTEX, MX_LOCK, MX_CONST_THREAD_SAFE", "Sourcecode/private/mx/utility/JitAllocate.h: MX_JIT_ALLOCATE, MX_JIT_ALLOCATE_ATTRIBUTES", "Sourcecode/private/mx/core/elements/Note.cpp: getAttributes, getNoteChoice, getInstrument, setInstrument, streamContents", "Sourcecode/private/mx/core/elements/MusicDataChoice.cpp: getNote, streamContents", "Sourcecode/private/mx/core/elements/PartwiseMeasure.cpp: getMusicDataGroup", "Sourcecode/private/mx/core/elements/FullNoteGroup.cpp: getFullNoteTypeChoice", "Sourcecode/private/mx/core/elements/FullNoteTypeChoice.cpp: getPitch, getUnpitched, getRest"]}
{"id": "C78", "title": "Walking through and editing an XML document", "statement": "A document that is edited through the XML interface (children appended, prepended, inserted and removed, values and names set, attributes added, renamed, changed and removed, in any order) is what the calls say as long as every element is used either for children or for a value and the attributes of an element have different names: walking over the children from begin to end visits exactly the child elements in their order, walking backwards visits them in the reverse order, walking with processing instructions visits everything, and name, value, type, attributes, parent and next sibling of every element are those of the tree that the calls describe. Calls that cannot be carried out throw and change nothing.", "quantifier": "all documents in which no element holds both children and text, and all sequences of editing calls", "why_tests_cant": "The iterators skip processing instructions in two directions and treat the first child specially; which combinations of children, texts and instructions arise depends on the whole history of edits, of which tests run a handful.", "anchors": ["Sourcecode/private/mx/ezxml/src/private/private/PugiElement.cpp: begin, beginWithProcessingInstructions, getType, setValue, appendChild, prependChild, insertSiblingAfter, removeChild, appendAttribute, prependAttribute, removeAttribute", "Sourcecode/private/mx/ezxml/src/private/private/PugiElementIterImpl.cpp: increment, decrement, getRef", "Sourcecode/private/mx/ezxml/src/private/private/PugiAttribute.cpp: setName, setValue", "Sourcecode/private/mx/ezxml/src/private/private/XElementIterator.cpp"]}
{"id": "C79", "title": "The settings of an XML document", "statement": "Version, encoding, standalone flag and document type of an XML document are always what the last calls have set or the loaded text declares: the functions of the document say so, and the text that is saved begins with a declaration and a document type that say so; a call with an unknown version or encoding is refused and changes nothing, and no such call touches the rest of the document. Settings of a document in UTF-8 survive saving and loading.", "quantifier": "all documents whose declaration is a well formed XML declaration of version 1.0 or 1.1, all sequences of calls, all texts", "why_tests_cant": "The same facts are held twice, in members of the document and in the attributes of the declaration node; whether the two agree depends on the order of all the calls since the document was made or loaded.", "anchors": ["Sourcecode/private/mx/ezxml/src/private/private/PugiDoc.cpp: loadStream, saveStream, setXmlVersion, setEncoding, setHasStandaloneAttribute, setIsStandalone, setHasDoctypeDeclaration, setDoctypeValue, parseXmlDeclarationValues", "Sourcecode/private/mx/ezxml/src/include/ezxml/XDocSpec.h: parseXmlVersion, parseEncoding, toString"]}
{"id": "C80", "title": "Times of a measure stay within the range of int", "statement": "Saving a measure all of whose notes begin at tick 0 or later and end at tick 1073741823 or earlier, and loading a measure whose durations, backups, forwards and offsets add up to no more than 2147483647 ticks of the score, never lets a calculated time or index leave the range of int: there is no undefined behaviour and the notes are where exact arithmetic puts them. Times, lengths and divisions beyond that are rejected instead of giving undefined behaviour.", "quantifier": "all measures of the API with any staves, voices, chords and directions; all sequences of children of a MusicXML measure; all divisions and scales", "why_tests_cant": "Overflow needs sums of times over whole measures that no example contains; the bound that is really needed (half of int) only follows from looking at all orders of staves, voices and directions.", "anchors": ["Sourcecode/private/mx/impl/MeasureWriter.cpp: writeDirections, writeForwardOrBackupIfNeeded, backup, forward, advanceCursorIfNeeded", "Sourcecode/private/mx/impl/MeasureWriter.h: setTime, advanceTickTimePosition", "Sourcecode/private/mx/impl/MeasureReader.cpp: parseNote, parseBackup, parseForward, parseDirectionImpl", "Sourcecode/private/mx/impl/Cursor.cpp: convertDurationToGlobalTickScale"]}
{"id": "C81", "title": "Decimal numbers survive floating point arithmetic", "statement": "Decimal values (durations, tenths, percentages, tempos, ...) of at most six decimals and below 2147483648 are stored, clamped, read from text and written exactly as if the arithmetic were exact, although they are calculated in binary floating point, where almost none of them exists: what is written is what was read; getting a value and assigning it again changes nothing; any other number below 10^18 is stored at most 0.51 millionths from itself.", "quantifier": "all classes of decimal numbers; all values of at most six decimals (below 2147483648 if the type has 53 binary digits, below 4398046511104 if it has 64); all texts; all histories of assignments and parses; all precisions of at least 53 digits", "why_tests_cant": "Rounding errors show up only for some values and some platforms (long double has 53, 64 or 113 digits); a test runs on one platform and tries a few values.", "anchors": ["Sourcecode/private/mx/core/Decimals.cpp: PreciseDecimal::setValue, PreciseDecimal::getValue, express, minExclusive, DecimalRange::setValue, Decimal::parse", "Sourcecode/private/mx/core/Decimals.h: NON_ZERO_AMOUNT"]}
{"id": "C82", "title": "Times are read right in floating point arithmetic", "statement": "The times of a score are calculated in binary floating point. In scores whose durations and divisions are whole numbers everything that is read (ticks per quarter, positions and lengths of all notes) is exactly what exact arithmetic gives, on every platform. The same is true of measures of decimal durations unless a length is within 1/100000 of an odd number of half ticks; in any case a conversion is at most 0.50001 ticks off. The same file gives the same music on every platform.", "quantifier": "all scores of any parts and measures; all divisions; all precisions of the floating point type of at least 53 digits", "why_tests_cant": "Rounding errors of a ratio such as 25/3 show up for single combinations of divisions and durations; a test suite runs on one platform.", "anchors": ["Sourcecode/private/mx/impl/Cursor.cpp: convertDurationToGlobalTickScale", "Sourcecode/private/mx/impl/MeasureReader.cpp: parseNote, parseBackup, parseForward, parseProperties", "Sourcecode/private/mx/impl/DirectionReader.cpp: updateTimeForOffset", "Sourcecode/private/mx/impl/ScoreReader.cpp: findMaxDivisionsPerQuarter", "Sourcecode/private/mx/core/Decimals.cpp: express"]}
{"id": "C83", "title": "Alterations and cents survive floating point arithmetic", "statement": "The semitones and cents of a note, or of a part of a custom key, are added up and taken apart again in binary floating point. For cents of at most four decimals in the direction of the alteration the text that is written is exactly right; when it is read the semitones are the same and the cents are equal to the ones given as far as the comparison of two notes can tell, and writing them again gives the same text. Whole cents come back exactly, so that a custom key equals the one that was written.", "quantifier": "all alterations up to 100000 semitones; all cents below 100 with up to four decimals; all precisions of the floating point type of at least 53 digits", "why_tests_cant": "Almost no number of cents is a binary number; a semitone lost in a truncation would show up for single values only, and on one platform only.", "anchors": ["Sourcecode/private/mx/impl/Converter.cpp: convertToAlter, convertToSemitonesAndCents", "Sourcecode/private/mx/impl/NoteWriter.cpp: setFullNoteTypeChoice", "Sourcecode/private/mx/impl/NoteReader.cpp: setRestPitchUnpitchedItems", "Sourcecode/private/mx/impl/PropertiesWriter.cpp: writeKey", "Sourcecode/private/mx/impl/MeasureReader.cpp: parseProperties", "Sourcecode/private/mx/core/Decimals.cpp: setValue, express"]}
{"id": "C84", "title": "Real numbers settle after one round trip", "statement": "A real number given through the API (a width, a margin, a position, a volume ...) is written with six decimals and read back in binary floating point. It comes back within a millionth and within the range of its class; what has come back once comes back unchanged ever after, on every platform; multiples of a 64th come back exactly; numbers of at most six decimals come back equal up to the tolerance with which positions are compared. The number that comes back compares equal to the one that was given.", "quantifier": "all twelve decimal classes; all numbers of the floating point type up to 500000000; all precisions of at least 53 binary digits", "why_tests_cant": "Most decimal fractions are not binary fractions; whether the errors of writing and reading cancel must be shown for every number and every precision.", "anchors": ["Sourcecode/private/mx/core/Decimals.cpp: setValue, toStream, express, parse", "Sourcecode/private/mx/impl/LayoutFunctions.cpp", "Sourcecode/private/mx/impl/PositionFunctions.h", "Sourcecode/private/mx/impl/MeasureWriter.cpp"]}
{"id": "C85", "title": "Objects of the API answer truthfully about themselves", "statement": "getNumStaves and getMaxVoice of a part are the largest number of staves of a measure and the largest number of a voice; the alteration of a chord extension can be set and asked for as a number, the same number the document has; isUsed is false exactly of an object in which nothing is set, and a print element is written exactly for a layout that is used; the short constructor of a layout gives the breaks it promises; isEqualTo holds of time signatures that are written alike; tenths per inch follow from the scaling; isBlack is true of black; isSpecified is true if anything is specified.", "quantifier": "all parts, extensions, layouts, time signatures, scalings (in floating point), colours, curve points and lines", "why_tests_cant": "The answers depend on every member of the object; a forgotten member only shows in objects that set nothing else.", "anchors": ["Sourcecode/include/mx/api/PartData.h: getNumStaves, getMaxVoice", "Sourcecode/include/mx/api/ChordData.h: getAlterValue, setAlterValue", "Sourcecode/include/mx/api/LayoutData.h", "Sourcecode/include/mx/api/TimeSignatureData.h: isEqualTo", "Sourcecode/include/mx/api/DefaultsData.h: tenthsPerInch", "Sourcecode/include/mx/api/ColorData.h: isBlack", "Sourcecode/include/mx/api/CurveData.h: isSpecified", "Sourcecode/include/mx/api/LineData.h: isSpecified"]}
{"id": "C86", "title": "A file that is cut off is never taken for another score", "statement": "If a file can be loaded, then whatever part of it from its start on is left (after a crash while it was written, or a broken transfer), loading that part is refused or gives the same score; only processing instructions behind the root element can be missing. A well formed file that is cut off anywhere in front of the end of its root element is refused; of a saved score without instructions behind the root only the last line end can be missing. Nor can anything that is appended to a file change the score that is loaded from it.", "quantifier": "all texts that can be loaded, all well formed files, all scores that can be saved, and every point at which they are cut off", "why_tests_cant": "A crash can happen at every byte; tests try a handful of broken files, and not every cut of every spelling of tags, references, comments, CDATA sections and document types.", "anchors": ["Sourcecode/private/mx/api/DocumentManager.cpp: createFromStream, writeToStream", "Sourcecode/private/mx/ezxml/src/private/private/pugixml.cpp: parse_tree, parse, strconv_pcdata, strconv_attribute, parse_question, parse_exclamation, parse_doctype_group", "Sourcecode/private/mx/ezxml/src/private/private/PugiDoc.cpp: loadStream, getRoot", "Sourcecode/private/mx/core/ElementInterface.cpp: fromXElement"]}
{"id": "C87", "title": "A file whose tags do not fit together is refused", "statement": "A file that is not well formed is refused, whatever it begins with and whatever follows: when an element is ended by another name, is never ended, or an end tag stands where nothing has been begun; when a start tag has an attribute without a value, without quotes or without white space in front of it, or a character that has no place in it; when a comment, a CDATA section, a processing instruction, a document type, a literal or a tag does not end; when a declaration or a document type stands inside of an element.", "quantifier": "all well formed beginnings of files, with any number of elements begun one in the other, all of these errors and all texts behind them", "why_tests_cant": "An error can be at every place of every file, behind any nesting of elements; tests try a few broken files.", "anchors": ["Sourcecode/private/mx/ezxml/src/private/private/pugixml.cpp: parse_tree, parse_exclamation, parse_question, parse_doctype_group, strconv_attribute", "Sourcecode/private/mx/ezxml/src/private/private/PugiDoc.cpp: loadStream", "Sourcecode/private/mx/api/DocumentManager.cpp: createFromStream, createFromFile"]}
{"id": "C88", "title": "Exactly three things keep a loaded document from giving its data", "statement": "Asking a loaded document for its data succeeds exactly when the numbers of its part groups are integers (or missing; the number of a stop that stops nothing is not looked at), every clef is on one of the staves that the notes, forwards, directions, harmonies and staves elements of its part mention, and no metronome mark consists of notes and a relation. Parts that the part list does not mention, the nesting of part groups, the staff numbers of notes and directions and the absence of divisions never make it fail.", "quantifier": "all part lists with all part groups, all parts with all measures and directions (values that can be represented; no divisions that are rounded to zero)", "why_tests_cant": "Exceptions can come from every element of every part; tests load a collection of files that happen not to have them.", "anchors": ["Sourcecode/private/mx/impl/ScoreReader.cpp: getScoreData, reconcileParts, handlePartGroup, parsePartGroupNumber", "Sourcecode/private/mx/impl/PartReader.cpp: calculateNumStaves", "Sourcecode/private/mx/impl/MeasureReader.cpp: parseProperties, importClefs, parseDirectionImpl", "Sourcecode/private/mx/impl/MetronomeReader.cpp: getTempoData", "Sourcecode/private/mx/api/DocumentManager.cpp: getData"]}
{"id": "C89", "title": "Only tempos that are not beats per minute keep a score from being written", "statement": "Creating a document from a score ends with an exception exactly when some direction in it has a tempo that is not a number of beats per minute; when it does not end so, every part, every measure and everything in the measures is written. The times of notes, directions, clefs and keys (negative, out of order, behind the end of the measure), voice numbers, chords, grace notes and empty measures never stop the writer. For a score that has been loaded this means: exactly when the file has a metronome mark with two beat units or with a number of beats that is not an integer.", "quantifier": "all scores: all numbers of parts, measures, staves, voices, notes and directions, with all times (numbers that can be represented)", "why_tests_cant": "The writer moves its clock back and forth with assertions on the way; which combinations of times make them fail cannot be found by trying.", "anchors": ["Sourcecode/private/mx/impl/ScoreWriter.cpp: getScorePartwise", "Sourcecode/private/mx/impl/PartWriter.cpp: writeMeasures", "Sourcecode/private/mx/impl/MeasureWriter.cpp: getPartwiseMeasure, writeVoices, writeForwardOrBackupIfNeeded, backup, writeDirections", "Sourcecode/private/mx/impl/DirectionWriter.cpp: getDirectionLikeThings", "Sourcecode/private/mx/api/DocumentManager.cpp: createFromScore"]}
{"id": "C90", "title": "Measures settle after at most two saves and loads", "statement": "Whatever is in a measure of a score or in a measure of a file (notes at any times and of any length, voices that overlap, go back or have gaps, chords of one note or of unequal notes, directions at any time, any voice numbers), saving and loading it may regroup its voices once, or twice if there are grace notes with a length, negative times or lengths, or mixed chords; from then on every further save and load gives the same staves with the same voices, the same notes at the same times and the same directions, and one time later also the voice numbers that the notes carry stay the same.", "quantifier": "all measures and all sequences of notes, backups, forwards, directions, attributes and barlines of a file; any number of saves and loads", "why_tests_cant": "That something settles is a statement about any number of repetitions; tests save and load once, with music that is already in the form in which it would be loaded.", "anchors": ["Sourcecode/private/mx/impl/MeasureWriter.cpp: writeVoices, writeForwardOrBackupIfNeeded", "Sourcecode/private/mx/impl/MeasureReader.cpp: getMeasureData, parseNote, parseBackup, consolidateVoicesForAllStaves", "Sourcecode/private/mx/impl/Cursor.cpp: convertDurationToGlobalTickScale", "Sourcecode/private/mx/api/DocumentManager.cpp: createFromScore, getData"]}
{"id": "C91", "title": "Whole scores settle after at most two saves and loads", "statement": "Take any score with positive ticks per quarter and at least one measure, whatever its parts (equal ids, ids that XML does not allow, no measures), staves (different numbers in different measures), notes, directions and clefs are. If no measure of a part has more staves than the first one, the score can be saved and loaded. Once it was saved and loaded, every further save and load succeeds, and after the second one nothing changes any more: ticks per quarter, parts and their ids, measures, staves, voices, notes, directions, clefs and the times of notes and directions are the same after any number of further saves and loads (the voice numbers that notes carry after the third). What is loaded from a file of any program is stable after the first save and load.", "quantifier": "all scores, all files, any number of saves and loads", "why_tests_cant": "Tests save and load once. That loading never fails after it has succeeded once, and that no history of saves makes a score drift, are statements about all scores and all numbers of repetitions.", "anchors": ["Sourcecode/private/mx/impl/ScoreWriter.cpp: getScorePartwise, addPartwisePart", "Sourcecode/private/mx/impl/PartWriter.cpp: writeMeasures", "Sourcecode/private/mx/impl/ScoreReader.cpp: getScoreData, findMaxDivisionsPerQuarter", "Sourcecode/private/mx/impl/PartReader.cpp: getPartData, calculateNumStaves", "Sourcecode/private/mx/impl/MeasureWriter.cpp: getPartwiseMeasure", "Sourcecode/private/mx/impl/MeasureReader.cpp: getMeasureData", "Sourcecode/private/mx/api/DocumentManager.cpp: createFromScore, getData"]}
{"id": "C92", "title": "A file that goes through the program keeps its music", "statement": "Load a MusicXML file and save what was loaded. In every part and every measure, exactly the same notes are then heard: they start at the same time, have the same length, are on the same staff and say the same, when both files are read as MusicXML prescribes (times in quarter notes). The divisions of parts and measures, the arrangement of voices with backups and forwards, and other content do not matter. Conditions: durations are whole numbers of divisions, a part declares divisions before its first note, backups stay within the measure, the notes of a chord are equally long. A chord must not come right after a chord of grace notes: this is not true in general (finding). If no grace notes are in chords, the same is true after any number of saves and loads.", "quantifier": "all files that meet the conditions: any number of parts, measures, staves, voices and notes, all divisions", "why_tests_cant": "Tests compare files of a corpus. A note that is lost or moved only for some combination of divisions, voices, chords and backups is found only by a statement about all files.", "anchors": ["Sourcecode/private/mx/impl/MeasureReader.cpp: parseNote, parseBackup, parseForward, parseProperties, getMeasureData", "Sourcecode/private/mx/impl/NoteReader.cpp", "Sourcecode/private/mx/impl/MeasureWriter.cpp: writeVoices, writeForwardOrBackupIfNeeded", "Sourcecode/private/mx/impl/NoteWriter.cpp", "Sourcecode/private/mx/impl/ScoreReader.cpp: findMaxDivisionsPerQuarter", "Sourcecode/private/mx/impl/PartReader.cpp: getPartData"]}
{"id": "C93", "title": "Directions are where they should be", "statement": "A direction (dynamics, words, pedal and so on) of a measure is saved at exactly the time it was given: read as MusicXML prescribes (current position plus offset, in divisions), the saved measure has exactly the given directions, on their staves, at their times and in their order. A direction of a file is loaded at exactly the time and on the staff the file gives it. A whole file that is loaded and saved again has the same directions at the same times on the same staves. Not true in general (findings): a direction in a chord that begins its voice, or on a chord after a grace note, is saved too late by the length of the chord; offsets are not converted to ticks when loaded; a direction between the notes of a chord is loaded at the beginning of the chord.", "quantifier": "all measures of meaningful requests, all files that meet the conditions: any number of parts, measures, staves, voices, notes and directions, all divisions", "why_tests_cant": "The place of a direction in the document, its offset and the time of the notes around it interact; tests check a few arrangements. Only a statement about all arrangements shows which of them go wrong.", "anchors": ["Sourcecode/private/mx/impl/MeasureWriter.cpp: writeDirections, writeDirection", "Sourcecode/private/mx/impl/DirectionWriter.cpp: getDirectionLikeThings", "Sourcecode/private/mx/impl/DirectionReader.cpp: initializeData, updateTimeForOffset", "Sourcecode/private/mx/impl/MeasureReader.cpp: parseDirection, parseHarmony"]}
{"id": "C94", "title": "Clefs are where they should be", "statement": "A clef of a measure is saved at exactly the time it was given: read as MusicXML prescribes (at the current position), the saved measure has exactly the given clefs, on their staves and at their times, those of each staff in their order. A clef of a file is loaded at exactly the time and on the staff the file gives it. A whole file that is loaded and saved again has the same clefs at the same times on the same staves. Not true in general (findings): a clef at a time at which no note of the staff's first voice starts is saved later (or, at the end of a measure whose last voice is shorter, earlier); a clef between the notes of a chord is loaded at the beginning of the chord.", "quantifier": "all measures of meaningful requests, all files that meet the conditions: any number of parts, measures, staves, voices, notes and clefs, all divisions", "why_tests_cant": "A misplaced clef changes the pitch every following note is read with. Its place depends on the notes of all voices of the staff; tests check a few arrangements.", "anchors": ["Sourcecode/private/mx/impl/MeasureWriter.cpp: writeMeasureGlobals, writeVoices", "Sourcecode/private/mx/impl/PropertiesWriter.cpp: writeClef, flushBuffer", "Sourcecode/private/mx/impl/MeasureReader.cpp: parseProperties, importClefs"]}
{"id": "C95", "title": "Key signatures are where they should be", "statement": "A key of a measure or of a staff is saved at exactly the time it was given and for the staff (or all staves) it was given: read as MusicXML prescribes, the saved measure has exactly the given keys. The keys of a file are loaded in their order at exactly the time and for the staff the file gives. A whole file that is loaded and saved again has the same keys at the same times for the same staves. Not true in general (findings): a key at a time at which no note of the first voice starts is saved later, a second key at one time is saved later or lost, a key for one staff inside a measure becomes a key for all staves; a key between the notes of a chord is loaded at the beginning of the chord, and a non-traditional key always for all staves at the beginning of the measure.", "quantifier": "all measures of meaningful requests, all files that meet the conditions: any number of parts, measures, staves, voices, notes and keys, all divisions", "why_tests_cant": "A misplaced key signature changes the accidentals of all following notes. Its place depends on the notes of all voices and on three different paths through the writer; tests check a few arrangements.", "anchors": ["Sourcecode/private/mx/impl/MeasureWriter.cpp: writeMeasureGlobals, writeVoices", "Sourcecode/private/mx/impl/PropertiesWriter.cpp: writeKey, flushBuffer", "Sourcecode/private/mx/impl/MeasureReader.cpp: parseProperties"]}
{"id": "C96", "title": "Barlines, repeats and endings are where they should be and say the same", "statement": "A barline of the API that is saved and loaded again keeps its type, ending, ending number, repeat and location. A saved measure has exactly the given barlines in their order, at the left, at the right or at their time in the middle; the barlines of a file are loaded in their order and at their places. A whole file that is loaded and saved again has, measure by measure, the same barlines at the same places with the same styles, endings and repeats. Not true in general (findings): middle barlines move to the end of the measure, repeats there change their direction, endings for several times keep only the first number, endings with a blank number become first endings, the styles tick and short are lost, and a barline without a location that is written first in its measure changes sides.", "quantifier": "all barlines, measures and files that meet the conditions: any number of parts, measures and barlines, all divisions", "why_tests_cant": "Repeats and endings decide in which order a piece is played. What is written depends on time, location and the order of the barlines together; tests check a handful of measures.", "anchors": ["Sourcecode/private/mx/impl/MeasureReader.cpp: parseBarline", "Sourcecode/private/mx/impl/MeasureWriter.cpp: writeBarlines", "Sourcecode/private/mx/impl/Converter.cpp: barlineMap, endingMap, barlinePlacementMap", "Sourcecode/include/mx/api/BarlineData.h: BarlineData"]}
{"id": "C97", "title": "The notes of a file keep what they say", "statement": "A note of a file that is loaded and saved says the same as before: kind (normal, cue, grace), ties, rest, unpitched or pitch with alteration and octave, type, dots, accidental, ratio of the time modification, stem, notehead and beams, however its numbers are spelt. Not true in general (findings): a note without type gets one, often a wrong one; the type of a rest for a whole measure, the place of rests and unpitched notes on the staff, the marks of accidentals, the accidental sharp-sharp, the notehead fa up and the normal type of a time modification are lost or changed; beams are renumbered and can be lost.", "quantifier": "every note of a file that meets the conditions, all spellings of its numbers, any position in its voice, all divisions", "why_tests_cant": "Files of other programs contain every combination of these elements in every spelling; the tests compare whole files that mx itself can express.", "anchors": ["Sourcecode/private/mx/impl/NoteReader.cpp: NoteReader", "Sourcecode/private/mx/impl/NoteFunctions.cpp: parseNote, deriveNoteTypeFromDurationValue", "Sourcecode/private/mx/impl/NoteWriter.cpp: getNote"]}
{"id": "C98", "title": "A file that goes through the program keeps its notes, with what they say", "statement": "When a file is loaded and what was loaded is saved, once or any number of times, the file at the end has, part by part and measure by measure, exactly the notes of the file at the beginning, at the same times, equally long, on the same staves, and every one of them says the same: pitch or rest, ties, type, dots, accidental, time modification, stem, notehead and beams. Not true in general: the findings of C92 (chords after chords of grace notes) and C97 (notes without type and others) apply.", "quantifier": "every file with any number of parts, measures, voices and notes that meets the conditions, all spellings of numbers, all divisions, any number of saves and loads", "why_tests_cant": "Time, place and content of notes are handled by different code that meets only in whole files, of which there are unboundedly many.", "anchors": ["Sourcecode/private/mx/impl/MeasureReader.cpp: parseNote", "Sourcecode/private/mx/impl/MeasureWriter.cpp: writeVoices", "Sourcecode/private/mx/impl/NoteReader.cpp: NoteReader", "Sourcecode/private/mx/impl/NoteWriter.cpp: getNote"]}
{"id": "C99", "title": "The directions of a file keep what they say", "statement": "When a file is loaded and saved, once or any number of times, a direction with dynamics, wedges, octave shifts, pedals, metronome marks and words comes out as one direction that says the same things, above or below as before, with its words in their order. Not true in general: the numbers of simultaneous wedges are lost, a wedge that continues comes out as a crescendo, an octave shift by three octaves as one by two, and segnos, codas, rehearsal marks and changes of the pedal are gone.", "quantifier": "every direction element with any number of direction types in any order and any contents, at all places and on all staves, any number of saves and loads", "why_tests_cant": "A direction may hold any number of things of seven kinds in any order; what is read is sorted by kind and written in another order.", "anchors": ["Sourcecode/private/mx/impl/DirectionReader.cpp: getDirectionData", "Sourcecode/private/mx/impl/DirectionWriter.cpp: getDirectionLikeThings", "Sourcecode/private/mx/impl/DynamicsReader.cpp: parseDynamics", "Sourcecode/private/mx/impl/DynamicsWriter.cpp: getDynamics"]}
{"id": "C100", "title": "The chord symbols of a file keep what they say", "statement": "When a file is loaded and saved, once or any number of times, the chord symbols keep, in their order, root, alterations, kind, text, bass and the degrees that are added, altered or left out, however the numbers are spelled. Not true in general: chords given by their function are gone, degrees other than 1 to 7, 9, 11 and 13 are dropped, quarter tones are rounded, and degrees that are not to be shown come out shown.", "quantifier": "every harmony element with any number of chords and degrees, all kinds, all spellings of the numbers, at all places and on all staves, any number of saves and loads", "why_tests_cant": "33 kinds, roots and basses with arbitrary alterations and lists of degrees of any length are converted to the enumerations of the API and back.", "anchors": ["Sourcecode/private/mx/impl/DirectionReader.cpp: parseHarmony", "Sourcecode/private/mx/impl/DirectionWriter.cpp: createHarmonyElements"]}
{"id": "C101", "title": "The time signatures of a file stay", "statement": "When a file is loaded and saved, once or any number of times, every measure says the time signature that it said before (numbers, common or cut symbol, whether it is shown), and measures without one still have none. Not true in general: 3/8 + 2/4 comes out as 3/8, (3+2)/8 and sections without meter are gone, different meters of two staves become one, and changes behind the first one of a measure are gone.", "quantifier": "every part with any number of measures, any number of attributes and time elements in them, all numbers, any number of saves and loads", "why_tests_cant": "The meter of a measure depends on all measures before it and on which elements come first; there are unboundedly many meters.", "anchors": ["Sourcecode/private/mx/impl/TimeReader.cpp: parseTime", "Sourcecode/private/mx/impl/MeasureReader.cpp: parseTimeSignature", "Sourcecode/private/mx/impl/PartReader.cpp: getPartData", "Sourcecode/private/mx/impl/PropertiesWriter.cpp: writeTime"]}
{"id": "C102", "title": "The clefs and key signatures of a file keep what they say", "statement": "When a file is loaded and saved, once or any number of times, every clef keeps its sign, line and octave, and every key signature its sharps or flats, what it cancels and its mode, or its single accidentals in their order. Not true in general: clefs below the staff lose their line, tablature and percussion clefs without one get one, modes other than major and minor are lost, an empty key becomes C major, and single accidentals for one staff come out for all.", "quantifier": "every clef and key element, all spellings of all numbers of the program, any number of accidentals, any number of saves and loads", "why_tests_cant": "There are unboundedly many spellings of numbers and lists of accidentals; a test tries some of them once.", "anchors": ["Sourcecode/private/mx/impl/PropertiesWriter.cpp: writeClef, writeKey", "Sourcecode/private/mx/impl/MeasureReader.cpp: importClef, parseProperties", "Sourcecode/include/mx/api/KeyData.h: KeyData"]}
{"id": "C103", "title": "The measure headers of a file stay", "statement": "When a file is loaded and saved, once or any number of times, every measure keeps the words of its number, its width, and whether its number is never shown, whether or not the number is the place of the measure. Not true in general: an empty number becomes the place of the measure, negative widths and the attribute non-controlling are gone, and multi-measure rests are read but never written.", "quantifier": "every part with any number of measures, all number texts, all spellings of widths with six decimals, any number of saves and loads", "why_tests_cant": "Whether the number is kept as text depends on the place of the measure, and there is no largest measure.", "anchors": ["Sourcecode/private/mx/impl/MeasureReader.cpp: getMeasureData, parseProperties", "Sourcecode/private/mx/impl/MeasureWriter.cpp: writeMeasureGlobals", "Sourcecode/include/mx/api/MeasureData.h: MeasureData"]}
{"id": "C104", "title": "The transposition of a part of a file stays", "statement": "When a file is loaded and saved, once or any number of times, a part says that it sounds as many semitones and scale steps higher or lower as before, whether the octaves are written apart or not. Not true in general: steps of zero or of whole octaves only are lost (C sharp becomes D flat), quarter tones are cut off, and changes of the transposition and those of a second staff are gone.", "quantifier": "every part with any number of measures and attributes elements, all spellings of all totals up to a million, any number of saves and loads", "why_tests_cant": "There are many ways to split an interval into octaves and the rest, and tests try a few of them.", "anchors": ["Sourcecode/private/mx/impl/Converter.cpp: convertToTranspose, convertToTransposeData", "Sourcecode/private/mx/impl/MeasureReader.cpp: parseProperties", "Sourcecode/private/mx/impl/PartReader.cpp: getPartData"]}
{"id": "C105", "title": "The titles, creators, encoding and credits of a file stay", "statement": "When a file is loaded and saved, once or any number of times, it keeps its titles and numbers, composer, lyricist, copyright, encoder, date, description, software, supported items, miscellaneous fields, and the texts, types and pages of its credits, each kind in its order. Not true in general: second composers, translators and other rights are gone, arrangers become lyricists, a date that is none becomes the first of January 1900, images and second types of credits are gone.", "quantifier": "every file, whatever characters the texts hold and however many items there are, in any order; any number of saves and loads", "why_tests_cant": "Texts and lists of items are unbounded, and items are picked by their place among others of all kinds.", "anchors": ["Sourcecode/private/mx/impl/ScoreReader.cpp: getScoreData", "Sourcecode/private/mx/impl/ScoreWriter.cpp: getScorePartwise", "Sourcecode/private/mx/impl/EncodingFunctions.cpp: createEncoding", "Sourcecode/private/mx/impl/PageTextFunctions.cpp: createPageTextItems"]}
{"id": "C106", "title": "The groups of parts of a file stay", "statement": "When a file is loaded and saved, once or any number of times, its part list has the same parts in the same order and the same groups of parts: first part, last part, number, name and symbol, however the groups are nested or cross each other. Not true in general: the abbreviations of groups are gone, groups without a symbol make saving undefined, groups with the same number that overlap are swapped.", "quantifier": "every part list, with any number of parts and groups, nested, crossing or side by side; any sorting routine; any number of saves and loads", "why_tests_cant": "The starts and stops of groups are matched by numbers over lists of any length, and the order of what is written depends on the sorting routine.", "anchors": ["Sourcecode/private/mx/impl/ScoreReader.cpp: reconcileParts, handlePartGroup", "Sourcecode/private/mx/impl/ScoreWriter.cpp: addScorePart", "Sourcecode/private/mx/core/elements/PartList.cpp: fromXElementImpl"]}
{"id": "C107", "title": "The names, instruments and MIDI data of the parts of a file stay", "statement": "When a file is loaded and saved, once or any number of times, what its part list says about a part is kept: id, name, abbreviation, the name that is shown, the instrument with its sound, solo or ensemble and virtual instrument, and the MIDI device, channel, bank, program, volume, pan and elevation, however the numbers are spelled. Not true in general: of several instruments only the first is left, MIDI names, unpitched notes and accidentals in names are lost, an abbreviation that is shown is replaced by the name, an instrument with nothing but a sound disappears, and a file with a sound outside the standard list cannot be loaded.", "quantifier": "every score-part with an instrument and MIDI data or without, every spelling of every number within the limits of MusicXML; any number of saves and loads", "why_tests_cant": "The texts and the spellings of the numbers are unlimited, and every combination of what is present and absent takes another way through the program.", "anchors": ["Sourcecode/private/mx/impl/PartReader.cpp: parseScorePart, parseScoreInstrument, parseMidiInstrument", "Sourcecode/private/mx/impl/PartWriter.cpp: getScorePart"]}
{"id": "C108", "title": "The layout of a file stays", "statement": "When a file is loaded and saved, once or any number of times, its layout says the same, however the numbers are spelled: the scaling, page size, margins of odd and even pages, system margins and distances, staff distance, line widths, note sizes and distances of the defaults, and for every measure whether it begins a system or a page, its page number and its layout. Not true in general: of the distances of several staves only the first is left, a top system distance without margins gets margins, negative page margins become zero, other appearances become distances.", "quantifier": "every set of defaults and every list of measures with at most one print element each; every spelling of every length with at most six decimals; any number of saves and loads", "why_tests_cant": "All combinations of what is present in defaults and in scores of any length, with unlimited spellings of the lengths.", "anchors": ["Sourcecode/private/mx/impl/LayoutFunctions.cpp: createDefaults, addDefaultsData", "Sourcecode/private/mx/impl/ScoreReader.cpp: scanForSystemInfo, scanForPageInfo", "Sourcecode/private/mx/impl/MeasureWriter.cpp: writeSystemInfo, writePageInfo"]}
{"id": "C109", "title": "The slurs and ties of the notes of a file stay", "statement": "When a file is loaded and saved, once or any number of times, the slur and tied elements of each note say the same, however their numbers are spelled: type, number, positions, placement, Bezier points, line, orientation and colour. None is lost, added or changed, and those of one type stay in their order. Not true in general: a note with tie elements gets more tied elements each time (its slurs stay), lines and colours where a curve ends are lost, so is the second Bezier point of a tie, and Bezier offsets are rounded.", "quantifier": "every list of slur and tied elements of a note of any kind, with every spelling of their numbers; any number of saves and loads", "why_tests_cant": "Lists of any length with twenty optional attributes each, with unlimited spellings of the numbers.", "anchors": ["Sourcecode/private/mx/impl/CurveFunctions.h: parseCurveStart, parseCurveContinue, parseCurveStop, writeAttributesFromCurveStart", "Sourcecode/private/mx/impl/NotationsWriter.cpp", "Sourcecode/private/mx/impl/NoteFunctions.cpp: parseNotations", "Sourcecode/private/mx/impl/NoteWriter.cpp: addTie"]}
{"id": "C110", "title": "The tuplets of the notes of a file stay", "statement": "When a file is loaded and saved, once or any number of times, the tuplet elements of each note say the same, however their numbers are spelled and whether the notes of the tuplet are given in the element or only by the time modification of the note: tuplet number, notes in the time of notes, bracket and shown numbers. None is lost, added or changed, those that start stay in order, and so do those that end. Not true in general: positions are lost, an element with only one of its two parts, with parts without a type, or on a note without time modification gets wrong numbers and note types.", "quantifier": "every list of tuplet elements of a note, with every spelling of their numbers, on every note; any number of saves and loads", "why_tests_cant": "Lists of any length, with explicit or derived note types and unlimited spellings of the numbers.", "anchors": ["Sourcecode/private/mx/impl/TupletReader.cpp: parseTuplet, guessActualFromNote, guessNormalFromNote", "Sourcecode/private/mx/impl/NotationsWriter.cpp: getNotations"]}
{"id": "C111", "title": "The marks of the notes of a file stay", "statement": "When a file is loaded and saved, once or any number of times, the articulations, ornaments, single-note tremolos, technical marks, dynamics and fermatas of each note say the same, however their numbers are spelled and in however many elements they are grouped: which mark, with which text, where it is placed and how it is aligned. None is lost, added or changed, and articulations, ornaments, technical marks and the others each stay in order. Not true in general: arpeggios, accidental marks, fingerings, tremolos between notes and the places of fermatas are lost, and eight slashes become three.", "quantifier": "every list of notation elements of a note with marks, with every spelling of their numbers; any number of saves and loads", "why_tests_cant": "Lists of any length, of all kinds of marks in any order, grouping and spelling.", "anchors": ["Sourcecode/private/mx/impl/NoteFunctions.cpp: parseNotations", "Sourcecode/private/mx/impl/NotationsWriter.cpp: addArticulation, addOrnament, addTechnical, getNotations"]}
{"id": "C112", "title": "All notations of the notes of a file stay together", "statement": "When a file is loaded and saved, once or any number of times, all notations of each note together say the same, in however many elements and in whatever order ties, slurs, tuplets and marks are mixed: none has an effect on another, and afterwards they are in one element. On notes with tie flags slurs, tuplets and marks stay. Not true in general: slides, glissandos and other notations are lost, and what C109 to C111 name.", "quantifier": "every list of notations elements of every note, with children of all kinds in every order and every spelling; any number of saves and loads", "why_tests_cant": "All interleavings of curves, tuplets and marks in lists of any length, in any number of elements.", "anchors": ["Sourcecode/private/mx/impl/NoteFunctions.cpp: parseNotations", "Sourcecode/private/mx/impl/NotationsWriter.cpp: getNotations", "Sourcecode/private/mx/impl/NoteWriter.cpp: getNote"]}
{"id": "C113", "title": "Whole notes of a file stay, apart from ties that multiply", "statement": "When a file is loaded and saved any number of times, each note with all its notations says the same: kind, pitch, type, dots, accidental, time modification, stem, notehead, beams, slurs, tuplets and marks. A note that is not tied says the same in everything. Not true for tied notes: each time the note is written, a tied element is added for a tie that ends or starts, and two of each if both, so that they grow without bound; exactly these are added.", "quantifier": "every note with every list of notations, in every measure and voice; any number of saves and loads", "why_tests_cant": "All combinations of a note with its notations; the number of ties after every number of saves.", "anchors": ["Sourcecode/private/mx/impl/NoteFunctions.cpp: parseNote, parseNotations", "Sourcecode/private/mx/impl/NoteWriter.cpp: getNote, addTie"]}
{"id": "C114", "title": "A file that goes through the program keeps its notes with all their notations", "statement": "When a file is loaded and saved any number of times, then part by part and measure by measure it has exactly the same notes at exactly the same times, equally long and on the same staves, and each of them says the same with all its slurs, tuplets and marks. The tied elements of tied notes grow each time by exactly those of C113; files without tied notes keep everything.", "quantifier": "every file whose parts and notes are such as C92 and C113 ask for; any number of saves and loads", "why_tests_cant": "Whole files of any size, with all combinations of notes and notations; an unlimited history of saves.", "anchors": ["Sourcecode/private/mx/impl/MeasureReader.cpp: parseNote", "Sourcecode/private/mx/impl/MeasureWriter.cpp: writeVoices", "Sourcecode/private/mx/impl/NoteFunctions.cpp: parseNote, parseNotations", "Sourcecode/private/mx/impl/NoteWriter.cpp: getNote"]}
