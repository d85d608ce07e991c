import Verif.Spec.TimesSaid
import Verif.Proofs.Properties

/-! Lemmas for `Verif/Props/TimesFileProps.lean`. -/
namespace Mx
open _root_.Spec Mx.Props

theorem frontTime_flatten (m : List (List TimeFile)) : frontTime m = m.flatten.head? := by
  induction m with
  | nil => rfl
  | cons l m ih =>
    cases l with
    | nil => exact ih
    | cons x l => rfl

/-- One measure. -/
theorem time_said {m : List (List TimeFile)} {as : List TimeSaid} (hs : List.Forall₂ TimeSays m.flatten as) (hk : TimesKept as) (i : Nat) (previous : TimeSignatureData) :
    ∃ t, readMeasureTime i previous ((frontTime m).map TimeFile.read) = some t ∧ List.Forall₂ TimeSays (writtenTimes t).flatten as := by
  rw [frontTime_flatten]
  rcases hk with rfl | ⟨a, b, bt, rfl, hm, hb, hbt, hsym, hst⟩
  · generalize m.flatten = l at hs
    cases hs
    exact ⟨_, rfl, .nil⟩
  · generalize m.flatten = l at hs
    cases hs with
    | @cons x _ l _ h1 h2 =>
      cases h2
      obtain ⟨sy, po, nu, co⟩ := x
      have hmeter := h1.meter
      cases co with
      | senzaMisura =>
        have hmeter : a.meter = none := hmeter
        rw [hm] at hmeter; cases hmeter
      | signature p ps =>
        obtain ⟨l, e1, e2⟩ : ∃ l, a.meter = some l ∧ List.Forall₂ PairSays (p :: ps) l := hmeter
        rw [hm] at e1
        cases e1
        cases e2 with
        | cons q1 q2 =>
          cases q2
          have hsy : sy = a.symbol.map StringEnum.toStr := h1.symbol
          have hpo : po = a.shown.map (fun b => if b then chars "yes" else chars "no") := h1.shown
          have hf : timeFound (some (.signature sy po p.1 p.2)) = some (some ⟨readTimeSymbol sy, b, bt, false, readTimeDisplay po⟩) := by
            unfold timeFound parseTime
            simp only [((C36_canonical_partial p.1 4).1 b).mpr ⟨q1.1, hb⟩, ((C36_canonical_partial p.2 4).1 bt).mpr ⟨q1.2, hbt⟩]
            rfl
          refine ⟨⟨readTimeSymbol sy, b, bt, false, readTimeDisplay po⟩, ?_, ?_⟩
          · show (timeFound (some (.signature sy po p.1 p.2))).map _ = _
            rw [hf]; rfl
          · refine .cons { meter := ⟨_, hm, .cons ⟨(canonical_iff _ _).mpr rfl, (canonical_iff _ _).mpr rfl⟩ .nil⟩, symbol := ?_, shown := ?_, staff := hst.symm } .nil
            · rw [hsy]
              rcases hsym with h | h | h <;> rw [h] <;> rfl
            · rw [hpo]
              rcases a.shown with _ | _ | _ <;> rfl

theorem times_said_from {ms : List (List (List TimeFile))} {said : List (List TimeSaid)} (hs : TimesSaid ms said) (hk : ∀ as ∈ said, TimesKept as) : ∀ (i : Nat) (previous : TimeSignatureData),
    ∃ ts, readTimesFrom i previous (ms.map (fun m => (frontTime m).map TimeFile.read)) = some ts ∧ TimesSaid (ts.map writtenTimes) said := by
  unfold TimesSaid at hs
  induction hs with
  | nil => intro i p; exact ⟨[], rfl, .nil⟩
  | cons h1 _ ih =>
    intro i p
    obtain ⟨t, k1, k2⟩ := time_said h1 (hk _ List.mem_cons_self) i p
    obtain ⟨ts, k3, k4⟩ := ih (fun as h => hk as (List.mem_cons_of_mem _ h)) (i + 1) t
    refine ⟨t :: ts, ?_, .cons k2 k4⟩
    rw [List.map_cons, readTimesFrom, k1]
    show (readTimesFrom (i + 1) t _).bind _ = _
    rw [k3]; rfl

end Mx
