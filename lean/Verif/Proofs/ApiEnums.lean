import Verif.Spec.ApiTexts

/-! Every row of the converter's tables, evaluated by the kernel. -/
namespace Mx

/-- The api values whose MusicXML text exists but is missing in the table of the converter. -/
def missingInTable : (n : MapName) → n.ApiType → Bool
  | .noteheadMap => fun a => a == .faUp
  | .accidentalMap => fun a => a == .sharpSharp
  | .technicalMarkMap => fun a => a == .fingernails
  | _ => fun _ => false

/-- The MusicXML values for which the api has no value of its own, or that are missing in the table of the converter. -/
def unsupportedText : (n : MapName) → n.CoreType → Bool
  | .noteheadMap => fun c => c == .faUp
  | .accidentalMap => fun c => c == .sharpSharp
  | .technicalMarkMap => fun c => c == .fingering || c == .pluck || c == .fret || c == .string_ || c == .hammerOn || c == .pullOff || c == .bend ||
      c == .tap || c == .fingernails || c == .hole || c == .arrow || c == .handbell
  | .wedgeMap => fun c => c == .stop || c == .continue_
  | .barlineMap => fun c => c == .tick || c == .short_
  | _ => fun _ => false

def ApiRowOk (n : MapName) (a : n.ApiType) : Prop :=
  ∀ s, Spec.apiText n a = some s → missingInTable n a = false → Spec.coreText n (n.toCore a) = s ∧ n.toApi (n.toCore a) = a

def CoreRowOk (n : MapName) (c : n.CoreType) : Prop :=
  unsupportedText n c = false → n.toCore (n.toApi c) = c ∧ Spec.apiText n (n.toApi c) = some (Spec.coreText n c)

/-- A form of `ApiRowOk` that can be evaluated. -/
def apiRow (n : MapName) (a : n.ApiType) : Bool :=
  (Spec.apiText n a).isNone || missingInTable n a || (decide (Spec.apiText n a = some (Spec.coreText n (n.toCore a))) && decide (n.toApi (n.toCore a) = a))

def coreRow (n : MapName) (c : n.CoreType) : Bool :=
  unsupportedText n c || (decide (n.toCore (n.toApi c) = c) && decide (Spec.apiText n (n.toApi c) = some (Spec.coreText n c)))

theorem apiRow_ok {n : MapName} {a : n.ApiType} (h : apiRow n a = true) : ApiRowOk n a := by
  intro s hs hm
  simp only [apiRow, hs, hm, Option.isNone_some, Bool.false_or, Bool.and_eq_true, decide_eq_true_eq, Option.some.injEq] at h
  exact ⟨h.1.symm, h.2⟩

theorem coreRow_ok {n : MapName} {c : n.CoreType} (h : coreRow n c = true) : CoreRowOk n c := by
  intro hu
  simp only [coreRow, hu, Bool.false_or, Bool.and_eq_true, decide_eq_true_eq] at h
  exact h

theorem apiRow_all (n : MapName) (a : n.ApiType) : apiRow n a = true := by
  cases n <;> (cases a <;> decide +kernel)

theorem coreRow_all (n : MapName) (c : n.CoreType) : coreRow n c = true := by
  cases n <;> (cases c <;> decide +kernel)

end Mx
