import Verif.Model.CoreEnums
import Verif.Proofs.StringEnum

/-! Each enumeration of private/mx/core/Enums.cpp: every row evaluated by the kernel. -/
namespace Mx

theorem roundTrips_AboveBelow : RoundTrips Core.AboveBelow := roundTrips_of (by intro x; cases x <;> decide +kernel) (by decide +kernel)
theorem roundTrips_AccidentalValue : RoundTrips Core.AccidentalValue := roundTrips_of (by intro x; cases x <;> decide +kernel) (by decide +kernel)
theorem roundTrips_ArrowDirectionEnum : RoundTrips Core.ArrowDirectionEnum := roundTrips_of (by intro x; cases x <;> decide +kernel) (by decide +kernel)
theorem roundTrips_ArrowStyleEnum : RoundTrips Core.ArrowStyleEnum := roundTrips_of (by intro x; cases x <;> decide +kernel) (by decide +kernel)
theorem roundTrips_BackwardForward : RoundTrips Core.BackwardForward := roundTrips_of (by intro x; cases x <;> decide +kernel) (by decide +kernel)
theorem roundTrips_BarStyleEnum : RoundTrips Core.BarStyleEnum := roundTrips_of (by intro x; cases x <;> decide +kernel) (by decide +kernel)
theorem roundTrips_BeamValue : RoundTrips Core.BeamValue := roundTrips_of (by intro x; cases x <;> decide +kernel) (by decide +kernel)
theorem roundTrips_BeaterValue : RoundTrips Core.BeaterValue := roundTrips_of (by intro x; cases x <;> decide +kernel) (by decide +kernel)
theorem roundTrips_BreathMarkValue : RoundTrips Core.BreathMarkValue := roundTrips_of (by intro x; cases x <;> decide +kernel) (by decide +kernel)
theorem roundTrips_CancelLocation : RoundTrips Core.CancelLocation := roundTrips_of (by intro x; cases x <;> decide +kernel) (by decide +kernel)
theorem roundTrips_CircularArrowEnum : RoundTrips Core.CircularArrowEnum := roundTrips_of (by intro x; cases x <;> decide +kernel) (by decide +kernel)
theorem roundTrips_ClefSign : RoundTrips Core.ClefSign := roundTrips_of (by intro x; cases x <;> decide +kernel) (by decide +kernel)
theorem roundTrips_CssFontSize : RoundTrips Core.CssFontSize := roundTrips_of (by intro x; cases x <;> decide +kernel) (by decide +kernel)
theorem roundTrips_DegreeSymbolValue : RoundTrips Core.DegreeSymbolValue := roundTrips_of (by intro x; cases x <;> decide +kernel) (by decide +kernel)
theorem roundTrips_DegreeTypeValue : RoundTrips Core.DegreeTypeValue := roundTrips_of (by intro x; cases x <;> decide +kernel) (by decide +kernel)
theorem roundTrips_DistanceTypeEnum : RoundTrips Core.DistanceTypeEnum := roundTrips_of (by intro x; cases x <;> decide +kernel) (by decide +kernel)
theorem roundTrips_DynamicsEnum : RoundTrips Core.DynamicsEnum := roundTrips_of (by intro x; cases x <;> decide +kernel) (by decide +kernel)
theorem roundTrips_EffectEnum : RoundTrips Core.EffectEnum := roundTrips_of (by intro x; cases x <;> decide +kernel) (by decide +kernel)
theorem roundTrips_EnclosureShape : RoundTrips Core.EnclosureShape := roundTrips_of (by intro x; cases x <;> decide +kernel) (by decide +kernel)
theorem roundTrips_Fan : RoundTrips Core.Fan := roundTrips_of (by intro x; cases x <;> decide +kernel) (by decide +kernel)
theorem roundTrips_FermataShape : RoundTrips Core.FermataShape := roundTrips_of (by intro x; cases x <;> decide +kernel) (by decide +kernel)
theorem roundTrips_FontStyle : RoundTrips Core.FontStyle := roundTrips_of (by intro x; cases x <;> decide +kernel) (by decide +kernel)
theorem roundTrips_FontWeight : RoundTrips Core.FontWeight := roundTrips_of (by intro x; cases x <;> decide +kernel) (by decide +kernel)
theorem roundTrips_GlassEnum : RoundTrips Core.GlassEnum := roundTrips_of (by intro x; cases x <;> decide +kernel) (by decide +kernel)
theorem roundTrips_GroupBarlineValue : RoundTrips Core.GroupBarlineValue := roundTrips_of (by intro x; cases x <;> decide +kernel) (by decide +kernel)
theorem roundTrips_GroupSymbolValue : RoundTrips Core.GroupSymbolValue := roundTrips_of (by intro x; cases x <;> decide +kernel) (by decide +kernel)
theorem roundTrips_HandbellValue : RoundTrips Core.HandbellValue := roundTrips_of (by intro x; cases x <;> decide +kernel) (by decide +kernel)
theorem roundTrips_HarmonyType : RoundTrips Core.HarmonyType := roundTrips_of (by intro x; cases x <;> decide +kernel) (by decide +kernel)
theorem roundTrips_HoleClosedLocation : RoundTrips Core.HoleClosedLocation := roundTrips_of (by intro x; cases x <;> decide +kernel) (by decide +kernel)
theorem roundTrips_HoleClosedValue : RoundTrips Core.HoleClosedValue := roundTrips_of (by intro x; cases x <;> decide +kernel) (by decide +kernel)
theorem roundTrips_KindValue : RoundTrips Core.KindValue := roundTrips_of (by intro x; cases x <;> decide +kernel) (by decide +kernel)
theorem roundTrips_LeftCenterRight : RoundTrips Core.LeftCenterRight := roundTrips_of (by intro x; cases x <;> decide +kernel) (by decide +kernel)
theorem roundTrips_LeftRight : RoundTrips Core.LeftRight := roundTrips_of (by intro x; cases x <;> decide +kernel) (by decide +kernel)
theorem roundTrips_LineEnd : RoundTrips Core.LineEnd := roundTrips_of (by intro x; cases x <;> decide +kernel) (by decide +kernel)
theorem roundTrips_LineShape : RoundTrips Core.LineShape := roundTrips_of (by intro x; cases x <;> decide +kernel) (by decide +kernel)
theorem roundTrips_LineType : RoundTrips Core.LineType := roundTrips_of (by intro x; cases x <;> decide +kernel) (by decide +kernel)
theorem roundTrips_LineWidthTypeEnum : RoundTrips Core.LineWidthTypeEnum := roundTrips_of (by intro x; cases x <;> decide +kernel) (by decide +kernel)
theorem roundTrips_MarginType : RoundTrips Core.MarginType := roundTrips_of (by intro x; cases x <;> decide +kernel) (by decide +kernel)
theorem roundTrips_MeasureNumberingValue : RoundTrips Core.MeasureNumberingValue := roundTrips_of (by intro x; cases x <;> decide +kernel) (by decide +kernel)
theorem roundTrips_MembraneEnum : RoundTrips Core.MembraneEnum := roundTrips_of (by intro x; cases x <;> decide +kernel) (by decide +kernel)
theorem roundTrips_MetalEnum : RoundTrips Core.MetalEnum := roundTrips_of (by intro x; cases x <;> decide +kernel) (by decide +kernel)
theorem roundTrips_ModeEnum : RoundTrips Core.ModeEnum := roundTrips_of (by intro x; cases x <;> decide +kernel) (by decide +kernel)
theorem roundTrips_MuteEnum : RoundTrips Core.MuteEnum := roundTrips_of (by intro x; cases x <;> decide +kernel) (by decide +kernel)
theorem roundTrips_NoteSizeType : RoundTrips Core.NoteSizeType := roundTrips_of (by intro x; cases x <;> decide +kernel) (by decide +kernel)
theorem roundTrips_NoteTypeValue : RoundTrips Core.NoteTypeValue := roundTrips_of (by intro x; cases x <;> decide +kernel) (by decide +kernel)
theorem roundTrips_NoteheadValue : RoundTrips Core.NoteheadValue := roundTrips_of (by intro x; cases x <;> decide +kernel) (by decide +kernel)
theorem roundTrips_OnOff : RoundTrips Core.OnOff := roundTrips_of (by intro x; cases x <;> decide +kernel) (by decide +kernel)
theorem roundTrips_OverUnder : RoundTrips Core.OverUnder := roundTrips_of (by intro x; cases x <;> decide +kernel) (by decide +kernel)
theorem roundTrips_PitchedEnum : RoundTrips Core.PitchedEnum := roundTrips_of (by intro x; cases x <;> decide +kernel) (by decide +kernel)
theorem roundTrips_PrincipalVoiceSymbol : RoundTrips Core.PrincipalVoiceSymbol := roundTrips_of (by intro x; cases x <;> decide +kernel) (by decide +kernel)
theorem roundTrips_RightLeftMiddle : RoundTrips Core.RightLeftMiddle := roundTrips_of (by intro x; cases x <;> decide +kernel) (by decide +kernel)
theorem roundTrips_SemiPitchedEnum : RoundTrips Core.SemiPitchedEnum := roundTrips_of (by intro x; cases x <;> decide +kernel) (by decide +kernel)
theorem roundTrips_ShowFrets : RoundTrips Core.ShowFrets := roundTrips_of (by intro x; cases x <;> decide +kernel) (by decide +kernel)
theorem roundTrips_ShowTuplet : RoundTrips Core.ShowTuplet := roundTrips_of (by intro x; cases x <;> decide +kernel) (by decide +kernel)
theorem roundTrips_StaffTypeEnum : RoundTrips Core.StaffTypeEnum := roundTrips_of (by intro x; cases x <;> decide +kernel) (by decide +kernel)
theorem roundTrips_StartNote : RoundTrips Core.StartNote := roundTrips_of (by intro x; cases x <;> decide +kernel) (by decide +kernel)
theorem roundTrips_StartStop : RoundTrips Core.StartStop := roundTrips_of (by intro x; cases x <;> decide +kernel) (by decide +kernel)
theorem roundTrips_StartStopChangeContinue : RoundTrips Core.StartStopChangeContinue := roundTrips_of (by intro x; cases x <;> decide +kernel) (by decide +kernel)
theorem roundTrips_StartStopContinue : RoundTrips Core.StartStopContinue := roundTrips_of (by intro x; cases x <;> decide +kernel) (by decide +kernel)
theorem roundTrips_StartStopDiscontinue : RoundTrips Core.StartStopDiscontinue := roundTrips_of (by intro x; cases x <;> decide +kernel) (by decide +kernel)
theorem roundTrips_StartStopSingle : RoundTrips Core.StartStopSingle := roundTrips_of (by intro x; cases x <;> decide +kernel) (by decide +kernel)
theorem roundTrips_StemValue : RoundTrips Core.StemValue := roundTrips_of (by intro x; cases x <;> decide +kernel) (by decide +kernel)
theorem roundTrips_StepEnum : RoundTrips Core.StepEnum := roundTrips_of (by intro x; cases x <;> decide +kernel) (by decide +kernel)
theorem roundTrips_StickLocationEnum : RoundTrips Core.StickLocationEnum := roundTrips_of (by intro x; cases x <;> decide +kernel) (by decide +kernel)
theorem roundTrips_StickMaterialEnum : RoundTrips Core.StickMaterialEnum := roundTrips_of (by intro x; cases x <;> decide +kernel) (by decide +kernel)
theorem roundTrips_StickTypeEnum : RoundTrips Core.StickTypeEnum := roundTrips_of (by intro x; cases x <;> decide +kernel) (by decide +kernel)
theorem roundTrips_SyllabicEnum : RoundTrips Core.SyllabicEnum := roundTrips_of (by intro x; cases x <;> decide +kernel) (by decide +kernel)
theorem roundTrips_SymbolSize : RoundTrips Core.SymbolSize := roundTrips_of (by intro x; cases x <;> decide +kernel) (by decide +kernel)
theorem roundTrips_TextDirection : RoundTrips Core.TextDirection := roundTrips_of (by intro x; cases x <;> decide +kernel) (by decide +kernel)
theorem roundTrips_TimeRelationEnum : RoundTrips Core.TimeRelationEnum := roundTrips_of (by intro x; cases x <;> decide +kernel) (by decide +kernel)
theorem roundTrips_TimeSeparator : RoundTrips Core.TimeSeparator := roundTrips_of (by intro x; cases x <;> decide +kernel) (by decide +kernel)
theorem roundTrips_TimeSymbol : RoundTrips Core.TimeSymbol := roundTrips_of (by intro x; cases x <;> decide +kernel) (by decide +kernel)
theorem roundTrips_TipDirection : RoundTrips Core.TipDirection := roundTrips_of (by intro x; cases x <;> decide +kernel) (by decide +kernel)
theorem roundTrips_TopBottom : RoundTrips Core.TopBottom := roundTrips_of (by intro x; cases x <;> decide +kernel) (by decide +kernel)
theorem roundTrips_TrillStep : RoundTrips Core.TrillStep := roundTrips_of (by intro x; cases x <;> decide +kernel) (by decide +kernel)
theorem roundTrips_TwoNoteTurn : RoundTrips Core.TwoNoteTurn := roundTrips_of (by intro x; cases x <;> decide +kernel) (by decide +kernel)
theorem roundTrips_UpDown : RoundTrips Core.UpDown := roundTrips_of (by intro x; cases x <;> decide +kernel) (by decide +kernel)
theorem roundTrips_UpDownStopContinue : RoundTrips Core.UpDownStopContinue := roundTrips_of (by intro x; cases x <;> decide +kernel) (by decide +kernel)
theorem roundTrips_UprightInverted : RoundTrips Core.UprightInverted := roundTrips_of (by intro x; cases x <;> decide +kernel) (by decide +kernel)
theorem roundTrips_Valign : RoundTrips Core.Valign := roundTrips_of (by intro x; cases x <;> decide +kernel) (by decide +kernel)
theorem roundTrips_ValignImage : RoundTrips Core.ValignImage := roundTrips_of (by intro x; cases x <;> decide +kernel) (by decide +kernel)
theorem roundTrips_WedgeType : RoundTrips Core.WedgeType := roundTrips_of (by intro x; cases x <;> decide +kernel) (by decide +kernel)
theorem roundTrips_Winged : RoundTrips Core.Winged := roundTrips_of (by intro x; cases x <;> decide +kernel) (by decide +kernel)
theorem roundTrips_WoodEnum : RoundTrips Core.WoodEnum := roundTrips_of (by intro x; cases x <;> decide +kernel) (by decide +kernel)
theorem roundTrips_YesNo : RoundTrips Core.YesNo := roundTrips_of (by intro x; cases x <;> decide +kernel) (by decide +kernel)
theorem roundTrips_XlinkActuate : RoundTrips Core.XlinkActuate := roundTrips_of (by intro x; cases x <;> decide +kernel) (by decide +kernel)
theorem roundTrips_XlinkShow : RoundTrips Core.XlinkShow := roundTrips_of (by intro x; cases x <;> decide +kernel) (by decide +kernel)
theorem roundTrips_XlinkType : RoundTrips Core.XlinkType := roundTrips_of (by intro x; cases x <;> decide +kernel) (by decide +kernel)
theorem roundTrips_XmlSpace : RoundTrips Core.XmlSpace := roundTrips_of (by intro x; cases x <;> decide +kernel) (by decide +kernel)

end Mx
