import Verif.Proofs.FloatScore
import Verif.Proofs.FloatTimesNear
import Verif.Props.ScoreTimeProps

/-!
# Property C82: times in floating point arithmetic
Specification: `Verif/Spec/FloatTimes.lean`, `Verif/Spec/MusicXMLClock.lean`, `Verif/Spec/MeasureRounding.lean`. Model: `Verif/Model/FloatTimes.lean`, where every operation rounds to a number of `prec` binary digits (53, 64 or 113).
-/
namespace Mx.Props
open Spec Mx.Measure Fl

variable {P : Type}

/-- **C82** Measures whose times are whole numbers of ticks: floating point arithmetic puts every note exactly where MusicXML has it. -/
theorem C82_positions {prec : Nat} (hp : 53 ≤ prec) (env : REnv) (divisions : Int) (es : List (Elem P)) (hG : 0 < env.globalTicksPerQuarter) (hG' : env.globalTicksPerQuarter ≤ INT_MAX)
    (hdiv : 0 < divisions) (hdiv' : divisions ≤ INT_MAX) (hw : WellTimed env.globalTicksPerQuarter (Clock.init divisions) none es)
    (hm : ModerateTimes env.globalTicksPerQuarter (Clock.init divisions) es) (hs : StavesExist env.numStaves es) :
    ∃ r, readElemsF prec env es (initRSt divisions) = some r ∧
      r.notes.map (ReadNote.place env.globalTicksPerQuarter) = (placedNotes (Clock.init divisions) es).map Placed.place := by
  rw [readElemsF_eq hp rfl hG hG' es (Clock.init divisions) (initRSt divisions) ⟨hdiv, hdiv', rfl⟩ hm (wellTimed_noHalf es _ none hw)]
  exact C02_read_positions_partial env divisions es hG hdiv hw hs

/-- **C82** If times are no whole numbers of ticks: a note is at most 0.50001 ticks per note, backup and forward in front of it away from where MusicXML has it, its length is at most 0.50001 ticks wrong, and staff, voice and content are right. -/
theorem C82_rounding {prec : Nat} (hp : 53 ≤ prec) (env : REnv) (divisions : Int) (es : List (Elem P)) (hG : 0 < env.globalTicksPerQuarter) (hG' : env.globalTicksPerQuarter ≤ INT_MAX)
    (hdiv : 0 < divisions) (hdiv' : divisions ≤ INT_MAX) (hw : ProperlyTimed (Clock.init divisions) none es)
    (hm : ModerateTimes env.globalTicksPerQuarter (Clock.init divisions) es) (hs : StavesExist env.numStaves es) :
    ∃ r, readElemsF prec env es (initRSt divisions) = some r ∧
      List.Forall₂ (fun x p => NearF env.globalTicksPerQuarter x.note.tick x.note.ticks x.staff x.note.userVoice x.note.content p.1 p.2) r.notes
        ((placedNotes (Clock.init divisions) es).zip (movesBefore 0 es)) := by
  obtain ⟨r, l, h1, h2, h3⟩ := read_nearF hp hG hG' rfl es (Clock.init divisions) none 0 (initRSt divisions) hw hm hs
    ⟨⟨hdiv, hdiv'⟩, rfl, by simp [initRSt, Clock.init], timed_none hw⟩
  have h2 : r.notes = l := by simpa [initRSt] using h2
  exact ⟨r, h1, by rw [h2]; exact h3⟩

/-- **C82** Where no length is (nearly) an odd number of half ticks, everything that is read of a measure is what exact arithmetic gives, whatever the precision. -/
theorem C82_exact {prec : Nat} (hp : 53 ≤ prec) (env : REnv) (divisions : Int) (es : List (Elem P)) (hG : 0 < env.globalTicksPerQuarter) (hG' : env.globalTicksPerQuarter ≤ INT_MAX)
    (hdiv : 0 < divisions) (hdiv' : divisions ≤ INT_MAX) (hm : ModerateTimes env.globalTicksPerQuarter (Clock.init divisions) es) (hh : NoHalfTicks env.globalTicksPerQuarter (Clock.init divisions) es) :
    readElemsF prec env es (initRSt divisions) = readElems env false es (initRSt divisions) :=
  readElemsF_eq hp rfl hG hG' es (Clock.init divisions) (initRSt divisions) ⟨hdiv, hdiv', rfl⟩ hm hh

/-- **C82** A whole score of whole lengths: everything that is read is what exact arithmetic gives, whatever the precision. -/
theorem C82_score {prec : Nat} (hp : 53 ≤ prec) (parts : List (Int × List (List (Elem P)))) (G : Int) (h0 : 0 < G) (hG : findMaxDivisionsPerQuarter (parts.map (·.2)) = .ok G)
    (hw : ∀ p ∈ parts, ∀ m ∈ p.2, ∀ e ∈ m, WholeElem G e) : readScoreTimesF prec parts = readScoreTimes parts := by
  have hf : findMaxDivisionsPerQuarterF prec (parts.map (·.2)) = findMaxDivisionsPerQuarter (parts.map (·.2)) := by
    unfold findMaxDivisionsPerQuarterF findMaxDivisionsPerQuarter
    rw [foundDivisionsF_whole hp (G := G)]
    intro q hq m hm e he
    obtain ⟨p, hp, rfl⟩ := List.mem_map.mp hq
    exact hw p hp m hm e he
  have hG' : G ≤ INT_MAX := by
    have h := hG
    unfold findMaxDivisionsPerQuarter at h
    by_cases hne : foundDivisions (parts.map (·.2)) = []
    · rw [hne] at h; cases h; decide
    · rw [LcmGcd.lcmSet_eq (LcmGcd.lcmSet_ok h) hne] at h
      split at h
      · rename_i h'; cases h; exact h'
      · cases h
  unfold readScoreTimesF readScoreTimes
  rw [hf, hG]
  simp only
  rw [readPartsF_whole hp h0 hG' parts (-1) (by omega) hw]
  intro p hpp m hm e he
  have hwe := hw p hpp m hm e he
  cases e with
  | attributes a =>
    intro d hd
    obtain ⟨k, hk, -, hkd⟩ := hwe d hd
    have hr : roundMicro d = k := by rw [hkd]; exact roundMicro_mul k
    have := (C05_scale_is_least_common_multiple _ G hG).1 p.2 (List.mem_map_of_mem hpp) m hm a he d hd (by omega)
    exact ⟨by omega, this⟩
  | _ => trivial

/-- **C82** So each note of each measure of each part of such a score has exactly the time and length MusicXML assigns to it. -/
theorem C82_score_times {prec : Nat} (hp : 53 ≤ prec) (parts : List (Int × List (List (Elem P)))) (G : Int) (h0 : 0 < G) (hG : findMaxDivisionsPerQuarter (parts.map (·.2)) = .ok G)
    (hw : ∀ p ∈ parts, ∀ m ∈ p.2, ∀ e ∈ m, WholeElem G e) (hd : ∀ p ∈ parts, ∀ m ∈ p.2.head?, declares m = true) (ht : ∀ p ∈ parts, p.2 ≠ [] ∧ PartTimed p.1 1 p.2) :
    ∃ rs, readScoreTimesF prec parts = some (G, rs) ∧
      rs.map (fun part => part.map (fun r => r.notes.map (ReadNote.place G))) = parts.map (fun p => (partPlaced 1 p.2).map (fun ps => ps.map Placed.place)) := by
  rw [C82_score hp parts G h0 hG hw]
  exact C05_score_times_partial parts G h0 hG hd ht

/-! ### Examples -/

/-- What is read of a score: ticks per quarter, and time and length of all notes. -/
def allTicksF (prec : Nat) (parts : List (Int × List (List (Elem String)))) : Option (Int × List (String × Int × Int)) :=
  (readScoreTimesF prec parts).map (fun x => (x.1, x.2.flatten.flatMap (fun r => r.notes.map (fun n => (n.note.content, n.note.tick, n.note.ticks)))))

/-- The score of C05, which meets the other hypotheses as well. -/
example : ∀ p ∈ exParts, ∀ m ∈ p.2, ∀ e ∈ m, WholeElem 60 e := by
  intro p hp m hm e he
  simp only [exParts, List.mem_cons, List.not_mem_nil, or_false] at hp
  rcases hp with rfl | rfl
  · simp only [List.mem_cons, List.not_mem_nil, or_false] at hm
    subst hm
    simp only [List.mem_cons, List.not_mem_nil, or_false] at he
    rcases he with rfl | rfl | rfl
    · intro d hd; exact ⟨4, by decide, by decide, by simpa using hd.symm⟩
    · exact ⟨4, rfl, by decide⟩
    · exact ⟨2, rfl, by decide⟩
  · simp only [List.mem_cons, List.not_mem_nil, or_false] at hm
    rcases hm with rfl | rfl
    · simp only [List.mem_cons, List.not_mem_nil, or_false] at he
      rcases he with rfl | rfl | rfl
      · trivial
      · intro d hd; exact ⟨6, by decide, by decide, by simpa using hd.symm⟩
      · exact ⟨9, rfl, by decide⟩
    · simp only [List.mem_cons, List.not_mem_nil, or_false] at he
      rcases he with rfl | rfl | rfl | rfl | rfl
      · intro d hd; exact ⟨10, by decide, by decide, by simpa using hd.symm⟩
      · exact ⟨5, rfl, by decide⟩
      · exact ⟨5, rfl, by decide⟩
      · exact ⟨5, rfl, by decide⟩
      · exact ⟨15, rfl, by decide⟩

example : allTicksF 53 exParts = some (60, [("c", 0, 60), ("d", 60, 30), ("e", 0, 90), ("f", 0, 30), ("g", 0, 30), ("a", 0, 90)]) := by decide +kernel

/-- A third of a division, as a decimal number, where a division is 3 ticks: 0.999999 ticks, which is no half. -/
def thirds : List (Elem String) := List.replicate 2 (.note { chord := false, kind := .normal, dur := 333333, staff := none, voice := some 1, content := "c" })

example : ModerateTimes 6 (Clock.init (2 : Int)) thirds ∧ NoHalfTicks 6 (Clock.init (2 : Int)) thirds ∧ ProperlyTimed (Clock.init (2 : Int)) none thirds ∧ StavesExist 1 thirds := by
  have e : ∀ c : Clock, c.division = 1 / 2 → c.quarters 333333 * (6 : Int) = 999999 / 1000000 := by
    intro c hc; unfold Clock.quarters; rw [hc]; norm_num
  have hno : NoHalfTick (999999 / 1000000) := by
    intro n
    by_contra h
    rw [not_lt, abs_le] at h
    have h1 : (n : ℚ) < 1 := by linarith [h.1]
    have h2 : (n : ℚ) + 1 > 1 := by linarith [h.2]
    have h1 : n < 1 := by exact_mod_cast h1
    have h2 : n + 1 > 1 := by exact_mod_cast h2
    omega
  have d0 : (Clock.init ((2 : Int) : ℚ)).division = 1 / 2 := by norm_num [Clock.init]
  refine ⟨?_, ?_, ?_, ?_⟩
  · refine ⟨?_, ?_, trivial⟩
    · rw [e _ d0]; norm_num [abs_of_pos]
    · rw [e _ (by simpa [Clock.step] using d0)]; norm_num [abs_of_pos]
  · refine ⟨Or.inr ?_, Or.inr ?_, trivial⟩
    · rw [e _ d0]; exact hno
    · rw [e _ (by simpa [Clock.step] using d0)]; exact hno
  · exact ⟨by decide, by simp, by simp, by decide, by simp, by simp, trivial⟩
  · refine ⟨by decide, ?_, ?_⟩
    · intro n hn s hs
      simp only [thirds, List.mem_replicate] at hn
      have := hn.2
      injection this with this
      subst this
      cases hs
    · intro a ha
      simp only [thirds, List.mem_replicate] at ha
      cases ha.2

/-! ### Half ticks -/

/-- A part with a duration of 1.1 and 0.3 divisions, and a part with 25 divisions. -/
def halves : List (Int × List (List (Elem String))) :=
  [(1, [[.attributes { divisions := some 1000000 }, .note { chord := false, kind := .normal, dur := 1100000, staff := none, voice := some 1, content := "c" },
      .note { chord := false, kind := .normal, dur := 300000, staff := none, voice := some 1, content := "d" }]]),
   (1, [[.attributes { divisions := some 25000000 }, exElem false 25 "e"]])]

/-- **C82 is false for half ticks**: 27.5 and 7.5 ticks are rounded in different directions, depending on the number of binary digits of `long double`, so that the same file is read as different music on different platforms. -/
theorem C82_half_ticks_depend_on_platform :
    allTicks halves = some (25, [("c", 0, 27), ("d", 27, 7), ("e", 0, 25)]) ∧
    allTicksF 53 halves = some (25, [("c", 0, 28), ("d", 28, 7), ("e", 0, 25)]) ∧
    allTicksF 64 halves = some (25, [("c", 0, 27), ("d", 27, 8), ("e", 0, 25)]) := by decide +kernel

end Mx.Props
