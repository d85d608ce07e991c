import Verif.Spec.SchemaEnums
import Verif.Proofs.CoreEnums

/-! Each enumeration compared with the schema: every row evaluated by the kernel. -/
namespace Mx

/-- The schema lists only texts of `toString`. -/
def schemaAgrees (n : EnumName) : Prop := (∀ x : n.Carrier, (x, StringEnum.toStr x) ∈ Spec.schemaRows n) ∧ ∀ p ∈ Spec.schemaRows n, StringEnum.toStr p.1 = p.2

theorem schemaAgrees_AboveBelow : schemaAgrees .AboveBelow := ⟨by intro x; cases x <;> decide +kernel, by decide +kernel⟩
theorem schemaAgrees_AccidentalValue : schemaAgrees .AccidentalValue := ⟨by intro x; cases x <;> decide +kernel, by decide +kernel⟩
theorem schemaAgrees_ArrowDirectionEnum : schemaAgrees .ArrowDirectionEnum := ⟨by intro x; cases x <;> decide +kernel, by decide +kernel⟩
theorem schemaAgrees_ArrowStyleEnum : schemaAgrees .ArrowStyleEnum := ⟨by intro x; cases x <;> decide +kernel, by decide +kernel⟩
theorem schemaAgrees_BackwardForward : schemaAgrees .BackwardForward := ⟨by intro x; cases x <;> decide +kernel, by decide +kernel⟩
theorem schemaAgrees_BarStyleEnum : schemaAgrees .BarStyleEnum := ⟨by intro x; cases x <;> decide +kernel, by decide +kernel⟩
theorem schemaAgrees_BeamValue : schemaAgrees .BeamValue := ⟨by intro x; cases x <;> decide +kernel, by decide +kernel⟩
theorem schemaAgrees_BeaterValue : schemaAgrees .BeaterValue := ⟨by intro x; cases x <;> decide +kernel, by decide +kernel⟩
theorem schemaAgrees_BreathMarkValue : schemaAgrees .BreathMarkValue := ⟨by intro x; cases x <;> decide +kernel, by decide +kernel⟩
theorem schemaAgrees_CancelLocation : schemaAgrees .CancelLocation := ⟨by intro x; cases x <;> decide +kernel, by decide +kernel⟩
theorem schemaAgrees_CircularArrowEnum : schemaAgrees .CircularArrowEnum := ⟨by intro x; cases x <;> decide +kernel, by decide +kernel⟩
theorem schemaAgrees_ClefSign : schemaAgrees .ClefSign := ⟨by intro x; cases x <;> decide +kernel, by decide +kernel⟩
theorem schemaAgrees_CssFontSize : schemaAgrees .CssFontSize := ⟨by intro x; cases x <;> decide +kernel, by decide +kernel⟩
theorem schemaAgrees_DegreeSymbolValue : schemaAgrees .DegreeSymbolValue := ⟨by intro x; cases x <;> decide +kernel, by decide +kernel⟩
theorem schemaAgrees_DegreeTypeValue : schemaAgrees .DegreeTypeValue := ⟨by intro x; cases x <;> decide +kernel, by decide +kernel⟩
theorem schemaAgrees_DistanceTypeEnum : schemaAgrees .DistanceTypeEnum := ⟨by intro x; cases x <;> decide +kernel, by decide +kernel⟩
theorem schemaAgrees_DynamicsEnum : schemaAgrees .DynamicsEnum := ⟨by intro x; cases x <;> decide +kernel, by decide +kernel⟩
theorem schemaAgrees_EffectEnum : schemaAgrees .EffectEnum := ⟨by intro x; cases x <;> decide +kernel, by decide +kernel⟩
theorem schemaAgrees_EnclosureShape : schemaAgrees .EnclosureShape := ⟨by intro x; cases x <;> decide +kernel, by decide +kernel⟩
theorem schemaAgrees_Fan : schemaAgrees .Fan := ⟨by intro x; cases x <;> decide +kernel, by decide +kernel⟩
theorem schemaAgrees_FermataShape : schemaAgrees .FermataShape := ⟨by intro x; cases x <;> decide +kernel, by decide +kernel⟩
theorem schemaAgrees_FontStyle : schemaAgrees .FontStyle := ⟨by intro x; cases x <;> decide +kernel, by decide +kernel⟩
theorem schemaAgrees_FontWeight : schemaAgrees .FontWeight := ⟨by intro x; cases x <;> decide +kernel, by decide +kernel⟩
theorem schemaAgrees_GlassEnum : schemaAgrees .GlassEnum := ⟨by intro x; cases x <;> decide +kernel, by decide +kernel⟩
theorem schemaAgrees_GroupBarlineValue : schemaAgrees .GroupBarlineValue := ⟨by intro x; cases x <;> decide +kernel, by decide +kernel⟩
theorem schemaAgrees_GroupSymbolValue : schemaAgrees .GroupSymbolValue := ⟨by intro x; cases x <;> decide +kernel, by decide +kernel⟩
theorem schemaAgrees_HandbellValue : schemaAgrees .HandbellValue := ⟨by intro x; cases x <;> decide +kernel, by decide +kernel⟩
theorem schemaAgrees_HarmonyType : schemaAgrees .HarmonyType := ⟨by intro x; cases x <;> decide +kernel, by decide +kernel⟩
theorem schemaAgrees_HoleClosedLocation : schemaAgrees .HoleClosedLocation := ⟨by intro x; cases x <;> decide +kernel, by decide +kernel⟩
theorem schemaAgrees_HoleClosedValue : schemaAgrees .HoleClosedValue := ⟨by intro x; cases x <;> decide +kernel, by decide +kernel⟩
theorem schemaAgrees_KindValue : schemaAgrees .KindValue := ⟨by intro x; cases x <;> decide +kernel, by decide +kernel⟩
theorem schemaAgrees_LeftCenterRight : schemaAgrees .LeftCenterRight := ⟨by intro x; cases x <;> decide +kernel, by decide +kernel⟩
theorem schemaAgrees_LeftRight : schemaAgrees .LeftRight := ⟨by intro x; cases x <;> decide +kernel, by decide +kernel⟩
theorem schemaAgrees_LineEnd : schemaAgrees .LineEnd := ⟨by intro x; cases x <;> decide +kernel, by decide +kernel⟩
theorem schemaAgrees_LineShape : schemaAgrees .LineShape := ⟨by intro x; cases x <;> decide +kernel, by decide +kernel⟩
theorem schemaAgrees_LineType : schemaAgrees .LineType := ⟨by intro x; cases x <;> decide +kernel, by decide +kernel⟩
theorem schemaAgrees_LineWidthTypeEnum : schemaAgrees .LineWidthTypeEnum := ⟨by intro x; cases x <;> decide +kernel, by decide +kernel⟩
theorem schemaAgrees_MarginType : schemaAgrees .MarginType := ⟨by intro x; cases x <;> decide +kernel, by decide +kernel⟩
theorem schemaAgrees_MeasureNumberingValue : schemaAgrees .MeasureNumberingValue := ⟨by intro x; cases x <;> decide +kernel, by decide +kernel⟩
theorem schemaAgrees_MembraneEnum : schemaAgrees .MembraneEnum := ⟨by intro x; cases x <;> decide +kernel, by decide +kernel⟩
theorem schemaAgrees_MetalEnum : schemaAgrees .MetalEnum := ⟨by intro x; cases x <;> decide +kernel, by decide +kernel⟩
theorem schemaAgrees_ModeEnum : schemaAgrees .ModeEnum := ⟨by intro x; cases x <;> decide +kernel, by decide +kernel⟩
theorem schemaAgrees_MuteEnum : schemaAgrees .MuteEnum := ⟨by intro x; cases x <;> decide +kernel, by decide +kernel⟩
theorem schemaAgrees_NoteSizeType : schemaAgrees .NoteSizeType := ⟨by intro x; cases x <;> decide +kernel, by decide +kernel⟩
theorem schemaAgrees_NoteTypeValue : schemaAgrees .NoteTypeValue := ⟨by intro x; cases x <;> decide +kernel, by decide +kernel⟩
theorem schemaAgrees_NoteheadValue : schemaAgrees .NoteheadValue := ⟨by intro x; cases x <;> decide +kernel, by decide +kernel⟩
theorem schemaAgrees_OnOff : schemaAgrees .OnOff := ⟨by intro x; cases x <;> decide +kernel, by decide +kernel⟩
theorem schemaAgrees_OverUnder : schemaAgrees .OverUnder := ⟨by intro x; cases x <;> decide +kernel, by decide +kernel⟩
theorem schemaAgrees_PitchedEnum : schemaAgrees .PitchedEnum := ⟨by intro x; cases x <;> decide +kernel, by decide +kernel⟩
theorem schemaAgrees_PrincipalVoiceSymbol : schemaAgrees .PrincipalVoiceSymbol := ⟨by intro x; cases x <;> decide +kernel, by decide +kernel⟩
theorem schemaAgrees_RightLeftMiddle : schemaAgrees .RightLeftMiddle := ⟨by intro x; cases x <;> decide +kernel, by decide +kernel⟩
theorem schemaAgrees_SemiPitchedEnum : schemaAgrees .SemiPitchedEnum := ⟨by intro x; cases x <;> decide +kernel, by decide +kernel⟩
theorem schemaAgrees_ShowFrets : schemaAgrees .ShowFrets := ⟨by intro x; cases x <;> decide +kernel, by decide +kernel⟩
theorem schemaAgrees_ShowTuplet : schemaAgrees .ShowTuplet := ⟨by intro x; cases x <;> decide +kernel, by decide +kernel⟩
theorem schemaAgrees_StaffTypeEnum : schemaAgrees .StaffTypeEnum := ⟨by intro x; cases x <;> decide +kernel, by decide +kernel⟩
theorem schemaAgrees_StartNote : schemaAgrees .StartNote := ⟨by intro x; cases x <;> decide +kernel, by decide +kernel⟩
theorem schemaAgrees_StartStop : schemaAgrees .StartStop := ⟨by intro x; cases x <;> decide +kernel, by decide +kernel⟩
theorem schemaAgrees_StartStopChangeContinue : schemaAgrees .StartStopChangeContinue := ⟨by intro x; cases x <;> decide +kernel, by decide +kernel⟩
theorem schemaAgrees_StartStopContinue : schemaAgrees .StartStopContinue := ⟨by intro x; cases x <;> decide +kernel, by decide +kernel⟩
theorem schemaAgrees_StartStopDiscontinue : schemaAgrees .StartStopDiscontinue := ⟨by intro x; cases x <;> decide +kernel, by decide +kernel⟩
theorem schemaAgrees_StartStopSingle : schemaAgrees .StartStopSingle := ⟨by intro x; cases x <;> decide +kernel, by decide +kernel⟩
theorem schemaAgrees_StemValue : schemaAgrees .StemValue := ⟨by intro x; cases x <;> decide +kernel, by decide +kernel⟩
theorem schemaAgrees_StepEnum : schemaAgrees .StepEnum := ⟨by intro x; cases x <;> decide +kernel, by decide +kernel⟩
theorem schemaAgrees_StickLocationEnum : schemaAgrees .StickLocationEnum := ⟨by intro x; cases x <;> decide +kernel, by decide +kernel⟩
theorem schemaAgrees_StickMaterialEnum : schemaAgrees .StickMaterialEnum := ⟨by intro x; cases x <;> decide +kernel, by decide +kernel⟩
theorem schemaAgrees_StickTypeEnum : schemaAgrees .StickTypeEnum := ⟨by intro x; cases x <;> decide +kernel, by decide +kernel⟩
theorem schemaAgrees_SyllabicEnum : schemaAgrees .SyllabicEnum := ⟨by intro x; cases x <;> decide +kernel, by decide +kernel⟩
theorem schemaAgrees_SymbolSize : schemaAgrees .SymbolSize := ⟨by intro x; cases x <;> decide +kernel, by decide +kernel⟩
theorem schemaAgrees_TextDirection : schemaAgrees .TextDirection := ⟨by intro x; cases x <;> decide +kernel, by decide +kernel⟩
theorem schemaAgrees_TimeRelationEnum : schemaAgrees .TimeRelationEnum := ⟨by intro x; cases x <;> decide +kernel, by decide +kernel⟩
theorem schemaAgrees_TimeSeparator : schemaAgrees .TimeSeparator := ⟨by intro x; cases x <;> decide +kernel, by decide +kernel⟩
theorem schemaAgrees_TimeSymbol : schemaAgrees .TimeSymbol := ⟨by intro x; cases x <;> decide +kernel, by decide +kernel⟩
theorem schemaAgrees_TipDirection : schemaAgrees .TipDirection := ⟨by intro x; cases x <;> decide +kernel, by decide +kernel⟩
theorem schemaAgrees_TopBottom : schemaAgrees .TopBottom := ⟨by intro x; cases x <;> decide +kernel, by decide +kernel⟩
theorem schemaAgrees_TrillStep : schemaAgrees .TrillStep := ⟨by intro x; cases x <;> decide +kernel, by decide +kernel⟩
theorem schemaAgrees_TwoNoteTurn : schemaAgrees .TwoNoteTurn := ⟨by intro x; cases x <;> decide +kernel, by decide +kernel⟩
theorem schemaAgrees_UpDown : schemaAgrees .UpDown := ⟨by intro x; cases x <;> decide +kernel, by decide +kernel⟩
theorem schemaAgrees_UpDownStopContinue : schemaAgrees .UpDownStopContinue := ⟨by intro x; cases x <;> decide +kernel, by decide +kernel⟩
theorem schemaAgrees_UprightInverted : schemaAgrees .UprightInverted := ⟨by intro x; cases x <;> decide +kernel, by decide +kernel⟩
theorem schemaAgrees_Valign : schemaAgrees .Valign := ⟨by intro x; cases x <;> decide +kernel, by decide +kernel⟩
theorem schemaAgrees_ValignImage : schemaAgrees .ValignImage := ⟨by intro x; cases x <;> decide +kernel, by decide +kernel⟩
theorem schemaAgrees_WedgeType : schemaAgrees .WedgeType := ⟨by intro x; cases x <;> decide +kernel, by decide +kernel⟩
theorem schemaAgrees_Winged : schemaAgrees .Winged := ⟨by intro x; cases x <;> decide +kernel, by decide +kernel⟩
theorem schemaAgrees_WoodEnum : schemaAgrees .WoodEnum := ⟨by intro x; cases x <;> decide +kernel, by decide +kernel⟩
theorem schemaAgrees_YesNo : schemaAgrees .YesNo := ⟨by intro x; cases x <;> decide +kernel, by decide +kernel⟩
theorem schemaAgrees_XlinkActuate : schemaAgrees .XlinkActuate := ⟨by intro x; cases x <;> decide +kernel, by decide +kernel⟩
theorem schemaAgrees_XlinkShow : schemaAgrees .XlinkShow := ⟨by intro x; cases x <;> decide +kernel, by decide +kernel⟩
theorem schemaAgrees_XlinkType : schemaAgrees .XlinkType := ⟨by intro x; cases x <;> decide +kernel, by decide +kernel⟩
theorem schemaAgrees_XmlSpace : schemaAgrees .XmlSpace := ⟨by intro x; cases x <;> decide +kernel, by decide +kernel⟩

theorem schemaAgrees_all (n : EnumName) : schemaAgrees n := by
  cases n
  · exact schemaAgrees_AboveBelow
  · exact schemaAgrees_AccidentalValue
  · exact schemaAgrees_ArrowDirectionEnum
  · exact schemaAgrees_ArrowStyleEnum
  · exact schemaAgrees_BackwardForward
  · exact schemaAgrees_BarStyleEnum
  · exact schemaAgrees_BeamValue
  · exact schemaAgrees_BeaterValue
  · exact schemaAgrees_BreathMarkValue
  · exact schemaAgrees_CancelLocation
  · exact schemaAgrees_CircularArrowEnum
  · exact schemaAgrees_ClefSign
  · exact schemaAgrees_CssFontSize
  · exact schemaAgrees_DegreeSymbolValue
  · exact schemaAgrees_DegreeTypeValue
  · exact schemaAgrees_DistanceTypeEnum
  · exact schemaAgrees_DynamicsEnum
  · exact schemaAgrees_EffectEnum
  · exact schemaAgrees_EnclosureShape
  · exact schemaAgrees_Fan
  · exact schemaAgrees_FermataShape
  · exact schemaAgrees_FontStyle
  · exact schemaAgrees_FontWeight
  · exact schemaAgrees_GlassEnum
  · exact schemaAgrees_GroupBarlineValue
  · exact schemaAgrees_GroupSymbolValue
  · exact schemaAgrees_HandbellValue
  · exact schemaAgrees_HarmonyType
  · exact schemaAgrees_HoleClosedLocation
  · exact schemaAgrees_HoleClosedValue
  · exact schemaAgrees_KindValue
  · exact schemaAgrees_LeftCenterRight
  · exact schemaAgrees_LeftRight
  · exact schemaAgrees_LineEnd
  · exact schemaAgrees_LineShape
  · exact schemaAgrees_LineType
  · exact schemaAgrees_LineWidthTypeEnum
  · exact schemaAgrees_MarginType
  · exact schemaAgrees_MeasureNumberingValue
  · exact schemaAgrees_MembraneEnum
  · exact schemaAgrees_MetalEnum
  · exact schemaAgrees_ModeEnum
  · exact schemaAgrees_MuteEnum
  · exact schemaAgrees_NoteSizeType
  · exact schemaAgrees_NoteTypeValue
  · exact schemaAgrees_NoteheadValue
  · exact schemaAgrees_OnOff
  · exact schemaAgrees_OverUnder
  · exact schemaAgrees_PitchedEnum
  · exact schemaAgrees_PrincipalVoiceSymbol
  · exact schemaAgrees_RightLeftMiddle
  · exact schemaAgrees_SemiPitchedEnum
  · exact schemaAgrees_ShowFrets
  · exact schemaAgrees_ShowTuplet
  · exact schemaAgrees_StaffTypeEnum
  · exact schemaAgrees_StartNote
  · exact schemaAgrees_StartStop
  · exact schemaAgrees_StartStopChangeContinue
  · exact schemaAgrees_StartStopContinue
  · exact schemaAgrees_StartStopDiscontinue
  · exact schemaAgrees_StartStopSingle
  · exact schemaAgrees_StemValue
  · exact schemaAgrees_StepEnum
  · exact schemaAgrees_StickLocationEnum
  · exact schemaAgrees_StickMaterialEnum
  · exact schemaAgrees_StickTypeEnum
  · exact schemaAgrees_SyllabicEnum
  · exact schemaAgrees_SymbolSize
  · exact schemaAgrees_TextDirection
  · exact schemaAgrees_TimeRelationEnum
  · exact schemaAgrees_TimeSeparator
  · exact schemaAgrees_TimeSymbol
  · exact schemaAgrees_TipDirection
  · exact schemaAgrees_TopBottom
  · exact schemaAgrees_TrillStep
  · exact schemaAgrees_TwoNoteTurn
  · exact schemaAgrees_UpDown
  · exact schemaAgrees_UpDownStopContinue
  · exact schemaAgrees_UprightInverted
  · exact schemaAgrees_Valign
  · exact schemaAgrees_ValignImage
  · exact schemaAgrees_WedgeType
  · exact schemaAgrees_Winged
  · exact schemaAgrees_WoodEnum
  · exact schemaAgrees_YesNo
  · exact schemaAgrees_XlinkActuate
  · exact schemaAgrees_XlinkShow
  · exact schemaAgrees_XlinkType
  · exact schemaAgrees_XmlSpace

theorem roundTrips_all (n : EnumName) : RoundTrips n.Carrier := by
  cases n
  · exact roundTrips_AboveBelow
  · exact roundTrips_AccidentalValue
  · exact roundTrips_ArrowDirectionEnum
  · exact roundTrips_ArrowStyleEnum
  · exact roundTrips_BackwardForward
  · exact roundTrips_BarStyleEnum
  · exact roundTrips_BeamValue
  · exact roundTrips_BeaterValue
  · exact roundTrips_BreathMarkValue
  · exact roundTrips_CancelLocation
  · exact roundTrips_CircularArrowEnum
  · exact roundTrips_ClefSign
  · exact roundTrips_CssFontSize
  · exact roundTrips_DegreeSymbolValue
  · exact roundTrips_DegreeTypeValue
  · exact roundTrips_DistanceTypeEnum
  · exact roundTrips_DynamicsEnum
  · exact roundTrips_EffectEnum
  · exact roundTrips_EnclosureShape
  · exact roundTrips_Fan
  · exact roundTrips_FermataShape
  · exact roundTrips_FontStyle
  · exact roundTrips_FontWeight
  · exact roundTrips_GlassEnum
  · exact roundTrips_GroupBarlineValue
  · exact roundTrips_GroupSymbolValue
  · exact roundTrips_HandbellValue
  · exact roundTrips_HarmonyType
  · exact roundTrips_HoleClosedLocation
  · exact roundTrips_HoleClosedValue
  · exact roundTrips_KindValue
  · exact roundTrips_LeftCenterRight
  · exact roundTrips_LeftRight
  · exact roundTrips_LineEnd
  · exact roundTrips_LineShape
  · exact roundTrips_LineType
  · exact roundTrips_LineWidthTypeEnum
  · exact roundTrips_MarginType
  · exact roundTrips_MeasureNumberingValue
  · exact roundTrips_MembraneEnum
  · exact roundTrips_MetalEnum
  · exact roundTrips_ModeEnum
  · exact roundTrips_MuteEnum
  · exact roundTrips_NoteSizeType
  · exact roundTrips_NoteTypeValue
  · exact roundTrips_NoteheadValue
  · exact roundTrips_OnOff
  · exact roundTrips_OverUnder
  · exact roundTrips_PitchedEnum
  · exact roundTrips_PrincipalVoiceSymbol
  · exact roundTrips_RightLeftMiddle
  · exact roundTrips_SemiPitchedEnum
  · exact roundTrips_ShowFrets
  · exact roundTrips_ShowTuplet
  · exact roundTrips_StaffTypeEnum
  · exact roundTrips_StartNote
  · exact roundTrips_StartStop
  · exact roundTrips_StartStopChangeContinue
  · exact roundTrips_StartStopContinue
  · exact roundTrips_StartStopDiscontinue
  · exact roundTrips_StartStopSingle
  · exact roundTrips_StemValue
  · exact roundTrips_StepEnum
  · exact roundTrips_StickLocationEnum
  · exact roundTrips_StickMaterialEnum
  · exact roundTrips_StickTypeEnum
  · exact roundTrips_SyllabicEnum
  · exact roundTrips_SymbolSize
  · exact roundTrips_TextDirection
  · exact roundTrips_TimeRelationEnum
  · exact roundTrips_TimeSeparator
  · exact roundTrips_TimeSymbol
  · exact roundTrips_TipDirection
  · exact roundTrips_TopBottom
  · exact roundTrips_TrillStep
  · exact roundTrips_TwoNoteTurn
  · exact roundTrips_UpDown
  · exact roundTrips_UpDownStopContinue
  · exact roundTrips_UprightInverted
  · exact roundTrips_Valign
  · exact roundTrips_ValignImage
  · exact roundTrips_WedgeType
  · exact roundTrips_Winged
  · exact roundTrips_WoodEnum
  · exact roundTrips_YesNo
  · exact roundTrips_XlinkActuate
  · exact roundTrips_XlinkShow
  · exact roundTrips_XlinkType
  · exact roundTrips_XmlSpace

end Mx
