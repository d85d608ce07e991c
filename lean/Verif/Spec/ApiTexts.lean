import Verif.Model.ConverterTables

/-
GENERATED by a script: the MusicXML text (of an attribute or element value, or the element name) that stands for each value of the enumerations of the
api (include/mx/api).  The text is the api enumerator in kebab case, found among the texts of the schema type; the exceptions are `longa` ("long"),
`dur16th`... ("16th"...), `extend` ("continue"), `forwardBroken`/`backwardBroken` ("forward hook"/"backward hook"), the stem `both` ("double"), the barline
`normal` ("regular"), the barline placement `center` ("middle"), the accidental marks and fermatas (without their prefix).  Values that stand for nothing
(`unspecified`, `Accidental::none`, `BarlineType::unsupported`) have no text, nor have marks of another category.  The tremolos with other numbers of
slashes share the element `tremolo` and are treated with the marks.
-/
namespace Mx.Spec

/-- Names of the child elements of `articulations`, Documents/musicxml.xsd. -/
def elementNameArticulationsChoice : Core.ArticulationsChoice → Str
  | .accent => chars "accent"
  | .strongAccent => chars "strong-accent"
  | .staccato => chars "staccato"
  | .tenuto => chars "tenuto"
  | .detachedLegato => chars "detached-legato"
  | .staccatissimo => chars "staccatissimo"
  | .spiccato => chars "spiccato"
  | .scoop => chars "scoop"
  | .plop => chars "plop"
  | .doit => chars "doit"
  | .falloff => chars "falloff"
  | .breathMark => chars "breath-mark"
  | .caesura => chars "caesura"
  | .stress => chars "stress"
  | .unstress => chars "unstress"
  | .otherArticulation => chars "other-articulation"

/-- Names of the child elements of `ornaments`, Documents/musicxml.xsd. -/
def elementNameOrnamentsChoice : Core.OrnamentsChoice → Str
  | .trillMark => chars "trill-mark"
  | .turn => chars "turn"
  | .delayedTurn => chars "delayed-turn"
  | .invertedTurn => chars "inverted-turn"
  | .delayedInvertedTurn => chars "delayed-inverted-turn"
  | .verticalTurn => chars "vertical-turn"
  | .shake => chars "shake"
  | .wavyLine => chars "wavy-line"
  | .mordent => chars "mordent"
  | .invertedMordent => chars "inverted-mordent"
  | .schleifer => chars "schleifer"
  | .tremolo => chars "tremolo"
  | .otherOrnament => chars "other-ornament"

/-- Names of the child elements of `technical`, Documents/musicxml.xsd. -/
def elementNameTechnicalChoice : Core.TechnicalChoice → Str
  | .upBow => chars "up-bow"
  | .downBow => chars "down-bow"
  | .harmonic => chars "harmonic"
  | .openString => chars "open-string"
  | .thumbPosition => chars "thumb-position"
  | .fingering => chars "fingering"
  | .pluck => chars "pluck"
  | .doubleTongue => chars "double-tongue"
  | .tripleTongue => chars "triple-tongue"
  | .stopped => chars "stopped"
  | .snapPizzicato => chars "snap-pizzicato"
  | .fret => chars "fret"
  | .string_ => chars "string"
  | .hammerOn => chars "hammer-on"
  | .pullOff => chars "pull-off"
  | .bend => chars "bend"
  | .tap => chars "tap"
  | .heel => chars "heel"
  | .toe => chars "toe"
  | .fingernails => chars "fingernails"
  | .hole => chars "hole"
  | .arrow => chars "arrow"
  | .handbell => chars "handbell"
  | .otherTechnical => chars "other-technical"

/-- The MusicXML text of a core value of a map. -/
def coreText : (n : MapName) → n.CoreType → Str
  | .stepMap => fun c => StringEnum.toStr (α := Core.StepEnum) c
  | .durationMap => fun c => StringEnum.toStr (α := Core.NoteTypeValue) c
  | .noteheadMap => fun c => StringEnum.toStr (α := Core.NoteheadValue) c
  | .beamMap => fun c => StringEnum.toStr (α := Core.BeamValue) c
  | .accidentalMap => fun c => StringEnum.toStr (α := Core.AccidentalValue) c
  | .clefMap => fun c => StringEnum.toStr (α := Core.ClefSign) c
  | .placementMap => fun c => StringEnum.toStr (α := Core.AboveBelow) c
  | .boolMap => fun c => StringEnum.toStr (α := Core.YesNo) c
  | .valignMap => fun c => StringEnum.toStr (α := Core.Valign) c
  | .halignMap => fun c => StringEnum.toStr (α := Core.LeftCenterRight) c
  | .cssMap => fun c => StringEnum.toStr (α := Core.CssFontSize) c
  | .articulationsMap => elementNameArticulationsChoice
  | .dynamicsMap => fun c => StringEnum.toStr (α := Core.DynamicsEnum) c
  | .ornamentsMap => elementNameOrnamentsChoice
  | .accidentalMarkMap => fun c => StringEnum.toStr (α := Core.AccidentalValue) c
  | .fontStyleMap => fun c => StringEnum.toStr (α := Core.FontStyle) c
  | .fontWeightMap => fun c => StringEnum.toStr (α := Core.FontWeight) c
  | .measureNumberingMap => fun c => StringEnum.toStr (α := Core.MeasureNumberingValue) c
  | .technicalMarkMap => elementNameTechnicalChoice
  | .stemMap => fun c => StringEnum.toStr (α := Core.StemValue) c
  | .lineType => fun c => StringEnum.toStr (α := Core.LineType) c
  | .wedgeMap => fun c => StringEnum.toStr (α := Core.WedgeType) c
  | .barlineMap => fun c => StringEnum.toStr (α := Core.BarStyleEnum) c
  | .lineStopMap => fun c => StringEnum.toStr (α := Core.LineEnd) c
  | .bracketMap => fun c => StringEnum.toStr (α := Core.GroupSymbolValue) c
  | .barlinePlacementMap => fun c => StringEnum.toStr (α := Core.RightLeftMiddle) c
  | .fermataMap => fun c => StringEnum.toStr (α := Core.FermataShape) c
  | .kindMap => fun c => StringEnum.toStr (α := Core.KindValue) c

/-- The MusicXML text that an api value stands for. -/
def apiText : (n : MapName) → n.ApiType → Option Str
  | .stepMap => fun
    | .c => some (chars "C")
    | .d => some (chars "D")
    | .e => some (chars "E")
    | .f => some (chars "F")
    | .g => some (chars "G")
    | .a => some (chars "A")
    | .b => some (chars "B")
    | _ => none
  | .durationMap => fun
    | .maxima => some (chars "maxima")
    | .longa => some (chars "long")
    | .breve => some (chars "breve")
    | .whole => some (chars "whole")
    | .half => some (chars "half")
    | .quarter => some (chars "quarter")
    | .eighth => some (chars "eighth")
    | .dur16th => some (chars "16th")
    | .dur32nd => some (chars "32nd")
    | .dur64th => some (chars "64th")
    | .dur128th => some (chars "128th")
    | .dur256th => some (chars "256th")
    | .dur512th => some (chars "512th")
    | .dur1024th => some (chars "1024th")
    | _ => none
  | .noteheadMap => fun
    | .slash => some (chars "slash")
    | .triangle => some (chars "triangle")
    | .diamond => some (chars "diamond")
    | .square => some (chars "square")
    | .cross => some (chars "cross")
    | .x => some (chars "x")
    | .circleX => some (chars "circle-x")
    | .invertedTriangle => some (chars "inverted triangle")
    | .arrowDown => some (chars "arrow down")
    | .arrowUp => some (chars "arrow up")
    | .slashed => some (chars "slashed")
    | .backSlashed => some (chars "back slashed")
    | .normal => some (chars "normal")
    | .cluster => some (chars "cluster")
    | .circleDot => some (chars "circle dot")
    | .leftTriangle => some (chars "left triangle")
    | .rectangle => some (chars "rectangle")
    | .none => some (chars "none")
    | .do_ => some (chars "do")
    | .re => some (chars "re")
    | .mi => some (chars "mi")
    | .fa => some (chars "fa")
    | .faUp => some (chars "fa up")
    | .so => some (chars "so")
    | .la => some (chars "la")
    | .ti => some (chars "ti")
  | .beamMap => fun
    | .begin => some (chars "begin")
    | .«end» => some (chars "end")
    | .extend => some (chars "continue")
    | .forwardBroken => some (chars "forward hook")
    | .backwardBroken => some (chars "backward hook")
    | _ => none
  | .accidentalMap => fun
    | .sharp => some (chars "sharp")
    | .natural => some (chars "natural")
    | .flat => some (chars "flat")
    | .doubleSharp => some (chars "double-sharp")
    | .sharpSharp => some (chars "sharp-sharp")
    | .flatFlat => some (chars "flat-flat")
    | .naturalSharp => some (chars "natural-sharp")
    | .naturalFlat => some (chars "natural-flat")
    | .quarterFlat => some (chars "quarter-flat")
    | .quarterSharp => some (chars "quarter-sharp")
    | .threeQuartersFlat => some (chars "three-quarters-flat")
    | .threeQuartersSharp => some (chars "three-quarters-sharp")
    | .sharpDown => some (chars "sharp-down")
    | .sharpUp => some (chars "sharp-up")
    | .naturalDown => some (chars "natural-down")
    | .naturalUp => some (chars "natural-up")
    | .flatDown => some (chars "flat-down")
    | .flatUp => some (chars "flat-up")
    | .tripleSharp => some (chars "triple-sharp")
    | .tripleFlat => some (chars "triple-flat")
    | .slashQuarterSharp => some (chars "slash-quarter-sharp")
    | .slashSharp => some (chars "slash-sharp")
    | .slashFlat => some (chars "slash-flat")
    | .doubleSlashFlat => some (chars "double-slash-flat")
    | .sharp1 => some (chars "sharp-1")
    | .sharp2 => some (chars "sharp-2")
    | .sharp3 => some (chars "sharp-3")
    | .sharp5 => some (chars "sharp-5")
    | .flat1 => some (chars "flat-1")
    | .flat2 => some (chars "flat-2")
    | .flat3 => some (chars "flat-3")
    | .flat4 => some (chars "flat-4")
    | .sori => some (chars "sori")
    | .koron => some (chars "koron")
    | _ => none
  | .clefMap => fun
    | .none => some (chars "none")
    | .g => some (chars "G")
    | .f => some (chars "F")
    | .c => some (chars "C")
    | .percussion => some (chars "percussion")
    | .tab => some (chars "TAB")
    | .jianpu => some (chars "jianpu")
  | .placementMap => fun
    | .above => some (chars "above")
    | .below => some (chars "below")
    | _ => none
  | .boolMap => fun
    | .yes => some (chars "yes")
    | .no => some (chars "no")
    | _ => none
  | .valignMap => fun
    | .top => some (chars "top")
    | .middle => some (chars "middle")
    | .bottom => some (chars "bottom")
    | .baseline => some (chars "baseline")
    | _ => none
  | .halignMap => fun
    | .left => some (chars "left")
    | .center => some (chars "center")
    | .right => some (chars "right")
    | _ => none
  | .cssMap => fun
    | .xxSmall => some (chars "xx-small")
    | .xSmall => some (chars "x-small")
    | .small => some (chars "small")
    | .medium => some (chars "medium")
    | .large => some (chars "large")
    | .xLarge => some (chars "x-large")
    | .xxLarge => some (chars "xx-large")
    | _ => none
  | .articulationsMap => fun
    | .accent => some (chars "accent")
    | .strongAccent => some (chars "strong-accent")
    | .staccato => some (chars "staccato")
    | .tenuto => some (chars "tenuto")
    | .detachedLegato => some (chars "detached-legato")
    | .staccatissimo => some (chars "staccatissimo")
    | .spiccato => some (chars "spiccato")
    | .scoop => some (chars "scoop")
    | .plop => some (chars "plop")
    | .doit => some (chars "doit")
    | .falloff => some (chars "falloff")
    | .breathMark => some (chars "breath-mark")
    | .caesura => some (chars "caesura")
    | .stress => some (chars "stress")
    | .unstress => some (chars "unstress")
    | .otherArticulation => some (chars "other-articulation")
    | _ => none
  | .dynamicsMap => fun
    | .p => some (chars "p")
    | .pp => some (chars "pp")
    | .ppp => some (chars "ppp")
    | .pppp => some (chars "pppp")
    | .ppppp => some (chars "ppppp")
    | .pppppp => some (chars "pppppp")
    | .f => some (chars "f")
    | .ff => some (chars "ff")
    | .fff => some (chars "fff")
    | .ffff => some (chars "ffff")
    | .fffff => some (chars "fffff")
    | .ffffff => some (chars "ffffff")
    | .mp => some (chars "mp")
    | .mf => some (chars "mf")
    | .sf => some (chars "sf")
    | .sfp => some (chars "sfp")
    | .sfpp => some (chars "sfpp")
    | .fp => some (chars "fp")
    | .rf => some (chars "rf")
    | .rfz => some (chars "rfz")
    | .sfz => some (chars "sfz")
    | .sffz => some (chars "sffz")
    | .fz => some (chars "fz")
    | .otherDynamics => some (chars "other-dynamics")
    | _ => none
  | .ornamentsMap => fun
    | .trillMark => some (chars "trill-mark")
    | .turn => some (chars "turn")
    | .delayedTurn => some (chars "delayed-turn")
    | .invertedTurn => some (chars "inverted-turn")
    | .delayedInvertedTurn => some (chars "delayed-inverted-turn")
    | .verticalTurn => some (chars "vertical-turn")
    | .shake => some (chars "shake")
    | .wavyLine => some (chars "wavy-line")
    | .mordent => some (chars "mordent")
    | .invertedMordent => some (chars "inverted-mordent")
    | .schleifer => some (chars "schleifer")
    | .tremoloSingleThree => some (chars "tremolo")
    | .otherOrnament => some (chars "other-ornament")
    | _ => none
  | .accidentalMarkMap => fun
    | .accidentalMarkSharp => some (chars "sharp")
    | .accidentalMarkNatural => some (chars "natural")
    | .accidentalMarkFlat => some (chars "flat")
    | .accidentalMarkDoubleSharp => some (chars "double-sharp")
    | .accidentalMarkSharpSharp => some (chars "sharp-sharp")
    | .accidentalMarkFlatFlat => some (chars "flat-flat")
    | .accidentalMarkNaturalSharp => some (chars "natural-sharp")
    | .accidentalMarkNaturalFlat => some (chars "natural-flat")
    | .accidentalMarkQuarterFlat => some (chars "quarter-flat")
    | .accidentalMarkQuarterSharp => some (chars "quarter-sharp")
    | .accidentalMarkThreeQuartersFlat => some (chars "three-quarters-flat")
    | .accidentalMarkThreeQuartersSharp => some (chars "three-quarters-sharp")
    | .accidentalMarkSharpDown => some (chars "sharp-down")
    | .accidentalMarkSharpUp => some (chars "sharp-up")
    | .accidentalMarkNaturalDown => some (chars "natural-down")
    | .accidentalMarkNaturalUp => some (chars "natural-up")
    | .accidentalMarkFlatDown => some (chars "flat-down")
    | .accidentalMarkFlatUp => some (chars "flat-up")
    | .accidentalMarkTripleSharp => some (chars "triple-sharp")
    | .accidentalMarkTripleFlat => some (chars "triple-flat")
    | .accidentalMarkSlashQuarterSharp => some (chars "slash-quarter-sharp")
    | .accidentalMarkSlashSharp => some (chars "slash-sharp")
    | .accidentalMarkSlashFlat => some (chars "slash-flat")
    | .accidentalMarkDoubleSlashFlat => some (chars "double-slash-flat")
    | .accidentalMarkSharp1 => some (chars "sharp-1")
    | .accidentalMarkSharp2 => some (chars "sharp-2")
    | .accidentalMarkSharp3 => some (chars "sharp-3")
    | .accidentalMarkSharp5 => some (chars "sharp-5")
    | .accidentalMarkFlat1 => some (chars "flat-1")
    | .accidentalMarkFlat2 => some (chars "flat-2")
    | .accidentalMarkFlat3 => some (chars "flat-3")
    | .accidentalMarkFlat4 => some (chars "flat-4")
    | .accidentalMarkSori => some (chars "sori")
    | .accidentalMarkKoron => some (chars "koron")
    | _ => none
  | .fontStyleMap => fun
    | .normal => some (chars "normal")
    | .italic => some (chars "italic")
    | _ => none
  | .fontWeightMap => fun
    | .normal => some (chars "normal")
    | .bold => some (chars "bold")
    | _ => none
  | .measureNumberingMap => fun
    | .none => some (chars "none")
    | .measure => some (chars "measure")
    | .system => some (chars "system")
    | _ => none
  | .technicalMarkMap => fun
    | .upBow => some (chars "up-bow")
    | .downBow => some (chars "down-bow")
    | .harmonic => some (chars "harmonic")
    | .openString => some (chars "open-string")
    | .thumbPosition => some (chars "thumb-position")
    | .doubleTongue => some (chars "double-tongue")
    | .tripleTongue => some (chars "triple-tongue")
    | .stopped => some (chars "stopped")
    | .snapPizzicato => some (chars "snap-pizzicato")
    | .heel => some (chars "heel")
    | .toe => some (chars "toe")
    | .fingernails => some (chars "fingernails")
    | .otherTechnical => some (chars "other-technical")
    | _ => none
  | .stemMap => fun
    | .up => some (chars "up")
    | .down => some (chars "down")
    | .none => some (chars "none")
    | .both => some (chars "double")
    | _ => none
  | .lineType => fun
    | .solid => some (chars "solid")
    | .dashed => some (chars "dashed")
    | .dotted => some (chars "dotted")
    | .wavy => some (chars "wavy")
    | _ => none
  | .wedgeMap => fun
    | .crescendo => some (chars "crescendo")
    | .diminuendo => some (chars "diminuendo")
    | _ => none
  | .barlineMap => fun
    | .none => some (chars "none")
    | .normal => some (chars "regular")
    | .lightLight => some (chars "light-light")
    | .lightHeavy => some (chars "light-heavy")
    | .heavyLight => some (chars "heavy-light")
    | .dotted => some (chars "dotted")
    | .dashed => some (chars "dashed")
    | .heavy => some (chars "heavy")
    | .heavyHeavy => some (chars "heavy-heavy")
    | _ => none
  | .lineStopMap => fun
    | .down => some (chars "down")
    | .up => some (chars "up")
    | .both => some (chars "both")
    | .arrow => some (chars "arrow")
    | .none => some (chars "none")
    | _ => none
  | .bracketMap => fun
    | .none => some (chars "none")
    | .brace => some (chars "brace")
    | .line => some (chars "line")
    | .bracket => some (chars "bracket")
    | .square => some (chars "square")
    | _ => none
  | .barlinePlacementMap => fun
    | .left => some (chars "left")
    | .center => some (chars "middle")
    | .right => some (chars "right")
    | _ => none
  | .fermataMap => fun
    | .fermata => some (chars "")
    | .fermataNormal => some (chars "normal")
    | .fermataAngled => some (chars "angled")
    | .fermataSquare => some (chars "square")
    | _ => none
  | .kindMap => fun
    | .major => some (chars "major")
    | .minor => some (chars "minor")
    | .augmented => some (chars "augmented")
    | .diminished => some (chars "diminished")
    | .dominant => some (chars "dominant")
    | .majorSeventh => some (chars "major-seventh")
    | .minorSeventh => some (chars "minor-seventh")
    | .diminishedSeventh => some (chars "diminished-seventh")
    | .augmentedSeventh => some (chars "augmented-seventh")
    | .halfDiminished => some (chars "half-diminished")
    | .majorMinor => some (chars "major-minor")
    | .majorSixth => some (chars "major-sixth")
    | .minorSixth => some (chars "minor-sixth")
    | .dominantNinth => some (chars "dominant-ninth")
    | .majorNinth => some (chars "major-ninth")
    | .minorNinth => some (chars "minor-ninth")
    | .dominant11Th => some (chars "dominant-11th")
    | .major11Th => some (chars "major-11th")
    | .minor11Th => some (chars "minor-11th")
    | .dominant13Th => some (chars "dominant-13th")
    | .major13Th => some (chars "major-13th")
    | .minor13Th => some (chars "minor-13th")
    | .suspendedSecond => some (chars "suspended-second")
    | .suspendedFourth => some (chars "suspended-fourth")
    | .neapolitan => some (chars "Neapolitan")
    | .italian => some (chars "Italian")
    | .french => some (chars "French")
    | .german => some (chars "German")
    | .pedal => some (chars "pedal")
    | .power => some (chars "power")
    | .tristan => some (chars "Tristan")
    | .other => some (chars "other")
    | .none => some (chars "none")
    | _ => none

end Mx.Spec
