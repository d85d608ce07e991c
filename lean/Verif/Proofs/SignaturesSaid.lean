import Verif.Model.SignaturesThrough
import Verif.Spec.SignaturesSaid
import Verif.Proofs.NoteKept
import Verif.Proofs.DirectionSaid

/-! Lemmas for `Verif/Props/SignatureFileProps.lean`. -/
namespace Mx
open _root_.Spec Mx.Props

theorem clefSign_there (s : Core.ClefSign) : (MapName.clefMap.toCore (MapName.clefMap.toApi (parseEnum (StringEnum.toStr s) : Core.ClefSign) : Api.ClefSymbol) : Core.ClefSign) = s := by
  cases s <;> decide +kernel

theorem standardLine_read (s : Core.ClefSign) {v : Int} (h : standardLine s = some v) : defaultClefLine (MapName.clefMap.toApi (parseEnum (StringEnum.toStr s) : Core.ClefSign)) = v := by
  cases s <;> cases h <;> decide +kernel

theorem clef_said (tick : Int) {staffIndex : Int} {x y : ClefXml} {a : ClefSaid} (hs : ClefSays x a) (hk : ClefKept a) (h : clefThrough tick staffIndex x = some y) : ClefSays y a := by
  obtain ⟨⟨v, hv, h0, hmax⟩, ho1, ho2⟩ := hk
  unfold clefThrough writeClef at h
  obtain ⟨num, -, rfl⟩ := Option.map_eq_some_iff.mp h
  have hin : InInt v := ⟨by unfold INT_MIN; omega, hmax⟩
  have hline : (importClef tick x).2.line = v := by
    show (x.line.map (parseBounded .StaffLine)).getD (defaultClefLine (MapName.clefMap.toApi (parseEnum x.sign : Core.ClefSign))) = v
    rcases hs.line with ⟨e1, e2⟩ | ⟨t, w, e1, e2, e3⟩
    · rw [e1, hs.sign]
      exact standardLine_read a.sign (by rw [← e2]; exact hv)
    · rw [e1]
      rw [hv] at e3
      cases e3
      exact parseBounded_numeral e2 hin hin
  have hoct : (importClef tick x).2.octaveChange = a.octaveChange := by
    show (x.octaveChange.map parseInteger).getD 0 = _
    rcases hs.octaveChange with ⟨e1, e2⟩ | ⟨t, e1, e2⟩
    · rw [e1, e2]; rfl
    · rw [e1]
      exact parseInteger_text e2 ⟨ho1, ho2⟩
  refine { sign := ?_, line := .inr ⟨(IntRange.ofKind .StaffLine v).toStr, v, ?_, bounded_says hin, hv⟩, octaveChange := ?_ }
  · show StringEnum.toStr (MapName.clefMap.toCore (MapName.clefMap.toApi (parseEnum x.sign : Core.ClefSign)) : Core.ClefSign) = _
    rw [hs.sign, clefSign_there]
  · show (if (importClef tick x).2.line ≥ 0 then some (IntRange.ofKind .StaffLine (importClef tick x).2.line).toStr else none) = _
    rw [hline, if_pos h0]
  · show ((if (importClef tick x).2.octaveChange ≠ 0 then some (Integer.toStr ⟨(importClef tick x).2.octaveChange⟩) else none) = none ∧ _) ∨ _
    rw [hoct]
    by_cases hz : a.octaveChange = 0
    · exact .inl ⟨by rw [if_neg (by simpa using hz)], hz⟩
    · refine .inr ⟨Integer.toStr ⟨a.octaveChange⟩, ?_, showInt_text _⟩
      exact if_pos hz

theorem keyAccidental_there (d : Core.AccidentalValue) (h : d ≠ .sharpSharp) : (MapName.accidentalMap.toApi (parseEnum (StringEnum.toStr d) : Core.AccidentalValue) : Api.Accidental) ≠ .none ∧
    (MapName.accidentalMap.toCore (MapName.accidentalMap.toApi (parseEnum (StringEnum.toStr d) : Core.AccidentalValue) : Api.Accidental) : Core.AccidentalValue) = d := by
  cases d <;> first | exact absurd rfl h | decide +kernel

theorem keyStep_there (s : Core.StepEnum) : (MapName.stepMap.toApi (parseEnum (StringEnum.toStr s) : Core.StepEnum) : Api.Step) ≠ .unspecified ∧
    StringEnum.toStr (MapName.stepMap.toCore (MapName.stepMap.toApi (parseEnum (StringEnum.toStr s) : Core.StepEnum) : Api.Step) : Core.StepEnum) = StringEnum.toStr s := by cases s <;> decide +kernel

/-- One accidental of a key. -/
theorem keyPart_said {x y : KeyPartXml} {a : KeyPartSaid} (hs : KeyPartSays x a) (h6 : HasDecimals 6 a.alter) (hv : |a.alter| ≤ 2147483647) (ha : a.accidental ≠ some .sharpSharp) {k : KeyComponent}
    (hr : readKeyPart x = some k) (hw : writeKeyPart k = some y) : KeyPartSays y a := by
  unfold readKeyPart at hr
  rw [parseSemitones_decimal hs.alter h6 hv] at hr
  simp only [Option.bind_eq_bind, Option.bind_eq_some_iff, Option.pure_def, Option.some.injEq] at hr
  obtain ⟨_, rfl, ⟨i, c⟩, hsc, rfl⟩ := hr
  have hval : (i : ℚ) + c / 100 = a.alter := by
    unfold readKeyAlter at hsc
    split at hsc
    · obtain ⟨i', c', e1, e2⟩ := alter_split h6 hv
      rw [e1] at hsc
      cases hsc
      exact e2
    · next hz =>
      cases hsc
      simp only [ne_eq, not_not] at hz
      rw [hz]; norm_num
  obtain ⟨t, e1, e2⟩ := semitones_says h6 hv
  unfold writeKeyPart at hw
  simp only [convertToAlter_eq, hval, e1, Option.map_some, Option.some.injEq] at hw
  subst hw
  refine { step := ?_, alter := e2, accidental := ?_ }
  · show StringEnum.toStr (MapName.stepMap.toCore (if (MapName.stepMap.toApi (parseEnum x.step : Core.StepEnum) : Api.Step) = .unspecified then .c else _ : Api.Step) : Core.StepEnum) = _
    rw [hs.step, if_neg (keyStep_there _).1]
    exact (keyStep_there _).2
  · rw [hs.accidental]
    cases hac : a.accidental with
    | none => rfl
    | some d =>
      have hd := keyAccidental_there d (fun h => ha (by rw [hac, h]))
      show (if (MapName.accidentalMap.toApi (parseEnum (StringEnum.toStr d) : Core.AccidentalValue) : Api.Accidental) ≠ .none then some (StringEnum.toStr (MapName.accidentalMap.toCore
        (MapName.accidentalMap.toApi (parseEnum (StringEnum.toStr d) : Core.AccidentalValue) : Api.Accidental) : Core.AccidentalValue)) else none) = _
      rw [if_pos hd.1, hd.2]
      rfl

theorem keyParts_said {xs : List KeyPartXml} {l : List KeyPartSaid} (hs : List.Forall₂ KeyPartSays xs l) (hk : ∀ p ∈ l, HasDecimals 6 p.alter ∧ |p.alter| ≤ 2147483647 ∧ p.accidental ≠ some .sharpSharp)
    {ks : List KeyComponent} (hr : List.Forall₂ (fun x k => readKeyPart x = some k) xs ks) {ys : List KeyPartXml} (hw : List.Forall₂ (fun k y => writeKeyPart k = some y) ks ys) : List.Forall₂ KeyPartSays ys l := by
  induction hs generalizing ks ys with
  | nil => cases hr; cases hw; exact .nil
  | cons h1 _ ih =>
    cases hr with
    | cons r1 r2 =>
      cases hw with
      | cons w1 w2 =>
        obtain ⟨k1, k2, k3⟩ := hk _ List.mem_cons_self
        exact .cons (keyPart_said h1 k1 k2 k3 r1 w1) (ih (fun p hp => hk p (List.mem_cons_of_mem _ hp)) r2 w2)

theorem mode_there (m : Option Str) (h : m = none ∨ m = some (chars "major") ∨ m = some (chars "minor")) :
    (if readKeyMode m = .major ∨ readKeyMode m = .minor then some (OpenValue.ofEnum (if readKeyMode m = .major then Core.ModeEnum.major else Core.ModeEnum.minor)).valueString else none) = m := by
  rcases h with rfl | rfl | rfl <;> decide +kernel

theorem key_said {numStaves tick : Int} {x y : KeyXml} {a : KeySaid} (hs : KeySays x a) (hk : KeyKept a) (h : keyThrough numStaves tick x = some y) : KeySays y a := by
  unfold keyThrough at h
  obtain ⟨k, hr, hw⟩ := Option.bind_eq_some_iff.mp h
  obtain ⟨num, ch⟩ := x
  cases ch with
  | traditional c f m =>
    cases a with
    | other l => cases hs
    | traditional fifths cancel mode =>
      obtain ⟨h1, h2, rfl⟩ : IntegerText f fifths ∧ ((c = none ∧ cancel = 0) ∨ ∃ t, c = some t ∧ IntegerText t cancel) ∧ m = mode := hs
      obtain ⟨k1, k2, k3⟩ := hk
      cases hr
      unfold writeKey at hw
      obtain ⟨n, -, hw⟩ := Option.bind_eq_some_iff.mp hw
      rw [if_pos rfl] at hw
      cases hw
      have hf : parseBounded .FifthsValue f = fifths := parseBounded_numeral h1 k1 k1
      have hc : (c.map (parseBounded .FifthsValue)).getD 0 = cancel := by
        rcases h2 with ⟨rfl, rfl⟩ | ⟨t, rfl, h2⟩
        · rfl
        · exact parseBounded_numeral h2 k2 k2
      show IntegerText (IntRange.ofKind .FifthsValue (parseBounded .FifthsValue f)).toStr fifths ∧ _ ∧ _
      refine ⟨by rw [hf]; exact bounded_says k1, ?_, mode_there m k3⟩
      show ((if (c.map (parseBounded .FifthsValue)).getD 0 ≠ 0 then some (IntRange.ofKind .FifthsValue ((c.map (parseBounded .FifthsValue)).getD 0)).toStr else none) = none ∧ _) ∨
        ∃ t, (if (c.map (parseBounded .FifthsValue)).getD 0 ≠ 0 then some (IntRange.ofKind .FifthsValue ((c.map (parseBounded .FifthsValue)).getD 0)).toStr else none) = some t ∧ _
      rw [hc]
      by_cases hz : cancel = 0
      · exact .inl ⟨by rw [if_neg (by simpa using hz)], hz⟩
      · exact .inr ⟨_, if_pos hz, bounded_says k2⟩
  | nonTraditional xs =>
    cases a with
    | traditional => cases hs
    | other l =>
      have hs : List.Forall₂ KeyPartSays xs l := hs
      obtain ⟨ks, hks, rfl⟩ := Option.map_eq_some_iff.mp (show (xs.mapM readKeyPart).map _ = some k from hr)
      have hf := Directions.mapM_forall₂ hks
      have hne : ks ≠ [] := by
        rintro rfl
        cases hf
        cases hs
        exact hk.1 rfl
      unfold writeKey at hw
      obtain ⟨n, -, hw⟩ := Option.bind_eq_some_iff.mp hw
      rw [if_neg hne] at hw
      obtain ⟨ys, hy, rfl⟩ := Option.map_eq_some_iff.mp hw
      exact keyParts_said hs hk.2 hf (Directions.mapM_forall₂ hy)

/-- A key signature stays on its staff. -/
theorem key_staff {numStaves tick : Int} {x y : KeyXml} {staff : Option Int} (hn : numStaves ≤ INT_MAX) (hs : KeyOnStaff x staff) (hv : ∀ v, staff = some v → 1 ≤ v ∧ v ≤ numStaves) (ht : Traditional x)
    (h : keyThrough numStaves tick x = some y) : KeyOnStaff y staff ∧ Traditional y := by
  obtain ⟨c, f, m, hc⟩ := ht
  obtain ⟨num, ch⟩ := x
  cases hc
  unfold keyThrough at h
  obtain ⟨k, hr, hw⟩ := Option.bind_eq_some_iff.mp h
  cases hr
  unfold writeKey at hw
  obtain ⟨n, hnum, hw⟩ := Option.bind_eq_some_iff.mp hw
  rw [if_pos rfl] at hw
  cases hw
  refine ⟨?_, _, _, _, rfl⟩
  rcases hs with ⟨rfl, rfl⟩ | ⟨t, v, rfl, hi, rfl⟩
  · have : staffNumberText (-1) = some n := hnum
    cases this
    exact .inl ⟨rfl, rfl⟩
  · obtain ⟨h1, h2⟩ := hv v rfl
    have hin : InInt v := ⟨by unfold INT_MIN; omega, by omega⟩
    have hp : parseBounded .StaffNumber t = v := parseBounded_numeral hi hin ⟨h1, by show v ≤ INT_MAX; omega⟩
    have hnum : staffNumberText (if parseBounded .StaffNumber t - 1 > numStaves - 1 then -1 else parseBounded .StaffNumber t - 1) = some n := hnum
    rw [hp, if_neg (by omega), staffNumberText, if_pos (by omega), Int.sub_add_cancel, chk_eq hin] at hnum
    cases hnum
    exact .inr ⟨_, v, rfl, bounded_says (k := .StaffNumber) ⟨h1, by show v ≤ INT_MAX; omega⟩, rfl⟩

end Mx
