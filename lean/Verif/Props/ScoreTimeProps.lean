import Verif.Proofs.ScoreTime
import Verif.Props.MeasureProps
import Mathlib.Tactic.NormNum

/-!
# Properties C05 and C06: the time scale of a score, gcd and lcm
Specification: `Verif/Spec/MusicXMLClock.lean`, `Verif/Spec/ScoreTime.lean`; divisibility of integers.
-/
namespace Mx.Props
open Spec Mx.Measure Mx.LcmGcd

variable {P : Type}

/-! ## C06 -/

/-- **C06** gcd of two numbers, for all `int`s but the smallest one (whose absolute value is no `int`, so that `std::abs` is undefined). -/
theorem C06_gcd (a b : Int) (ha : -INT_MAX ≤ a ∧ a ≤ INT_MAX) (hb : -INT_MAX ≤ b ∧ b ≤ INT_MAX) :
    ∃ g : Int, gcd2 a b = .ok g ∧ 0 ≤ g ∧ g ∣ a ∧ g ∣ b ∧ ∀ d : Int, d ∣ a → d ∣ b → d ∣ g :=
  ⟨_, gcd2_eq ha hb, by omega, Int.gcd_dvd_left .., Int.gcd_dvd_right .., fun _ h1 h2 => Int.dvd_coe_gcd h1 h2⟩

/-- **C06** gcd of the smallest `int`: undefined. -/
theorem C06_gcd_smallest (b : Int) : gcd2 INT_MIN b = .error .undefined := rfl

theorem gcdAll_dvd {xs : List Int} {x : Int} (h : x ∈ xs) : (gcdAll xs : Int) ∣ x := by
  induction xs with
  | nil => simp at h
  | cons y xs ih =>
    rcases List.mem_cons.mp h with rfl | h
    · exact Int.natCast_dvd.mpr (Nat.gcd_dvd_left ..)
    · exact dvd_trans (Int.natCast_dvd_natCast.mpr (Nat.gcd_dvd_right ..)) (ih h)

theorem dvd_gcdAll {xs : List Int} {d : Int} (h : ∀ x ∈ xs, d ∣ x) : d ∣ (gcdAll xs : Int) := by
  induction xs with
  | nil => simp [gcdAll]
  | cons y xs ih =>
    have h1 := h y (by simp)
    have h2 := ih (fun x hx => h x (by simp [hx]))
    simp only [gcdAll]
    rw [← Int.natAbs_dvd_natAbs] at h1 h2 ⊢
    simp only [Int.natAbs_natCast] at h2 ⊢
    exact Nat.dvd_gcd h1 h2

/-- **C06** gcd of a list with at most one zero among at least two numbers: the greatest common divisor. -/
theorem C06_gcd_list (xs : List Int) (hx : ∀ x ∈ xs, -INT_MAX ≤ x ∧ x ≤ INT_MAX) (h2 : 2 ≤ xs.length) (hz : xs.count 0 ≤ 1) :
    ∃ g : Int, gcdList xs = .ok g ∧ 0 ≤ g ∧ (∀ x ∈ xs, g ∣ x) ∧ ∀ d : Int, (∀ x ∈ xs, d ∣ x) → d ∣ g := by
  match xs with
  | x :: y :: rest =>
    refine ⟨(gcdAll (x :: y :: rest) : Nat), ?_, by omega, fun z hz => gcdAll_dvd hz, fun d hd => dvd_gcdAll hd⟩
    simp only [gcdList]
    refine gcdRest_ok _ _ _ (hx x (by simp)) (fun z hz => hx z (by simp [hz])) ?_ (by simp)
    have := zeros_cons (z := false) (x := x) (xs := y :: rest) (by simp)
    simp only [Bool.false_or] at this
    rw [this]
    simpa [zeros] using hz

/-- **C06** Two or more zeros among at least two numbers: an exception, as documented. -/
theorem C06_gcd_list_zeros (xs : List Int) (hx : ∀ x ∈ xs, -INT_MAX ≤ x ∧ x ≤ INT_MAX) (hz : 2 ≤ xs.count 0) :
    gcdList xs = .error .throws := by
  match xs with
  | [] => simp at hz
  | [x] =>
    have := List.count_le_length (a := (0 : Int)) (l := [x])
    simp only [List.length_singleton] at this
    omega
  | x :: y :: rest =>
    simp only [gcdList]
    refine gcdRest_throws _ _ _ (hx x (by simp)) (fun z hz => hx z (by simp [hz])) ?_
    have := zeros_cons (z := false) (x := x) (xs := y :: rest) (by simp)
    simp only [Bool.false_or] at this
    rw [this]
    simpa [zeros] using hz

/-- **C06** The documented special cases of lists: no number gives 1, a single number its absolute value, a single zero 1. -/
theorem C06_gcd_list_short (x : Int) (hx : -INT_MAX ≤ x ∧ x ≤ INT_MAX) :
    gcdList [] = .ok 1 ∧ gcdList [x] = .ok (if x = 0 then 1 else (x.natAbs : Int)) := by
  refine ⟨rfl, ?_⟩
  simp only [gcdList, absInt_fine hx, bind, Except.bind]
  by_cases h : x = 0
  · simp [h]
  · rw [if_neg h, if_neg (by omega)]

/-- **C06** lcm of two numbers: whenever it is representable it is returned, otherwise the multiplication overflows. -/
theorem C06_lcm (a b : Int) (ha : -INT_MAX ≤ a ∧ a ≤ INT_MAX) (hb : -INT_MAX ≤ b ∧ b ≤ INT_MAX) :
    ∃ l : Int, 0 ≤ l ∧ a ∣ l ∧ b ∣ l ∧ (∀ m : Int, a ∣ m → b ∣ m → l ∣ m) ∧
      lcm2 a b = if l ≤ INT_MAX then .ok l else .error .undefined :=
  ⟨_, by omega, Int.dvd_lcm_left .., Int.dvd_lcm_right .., fun _ h1 h2 => Int.coe_lcm_dvd h1 h2, lcm2_eq ha hb⟩

/-- **C06** lcm of a set without zeros: whenever it is representable it is returned, otherwise a multiplication overflows. -/
theorem C06_lcm_set (xs : List Int) (hx : ∀ x ∈ xs, (-INT_MAX ≤ x ∧ x ≤ INT_MAX) ∧ x ≠ 0) (hne : xs ≠ []) :
    ∃ l : Int, 0 < l ∧ (∀ x ∈ xs, x ∣ l) ∧ (∀ m : Int, (∀ x ∈ xs, x ∣ m) → l ∣ m) ∧
      lcmSet xs = if l ≤ INT_MAX then .ok l else .error .undefined := by
  refine ⟨(lcmAll xs : Nat), ?_, ?_, ?_, lcmSet_eq hx hne⟩
  · have := lcmAll_pos (fun x h => (hx x h).2); omega
  · intro x h
    rw [← Int.natAbs_dvd_natAbs]
    exact (lcmAll_dvd_iff xs _).mp (dvd_refl _) x h
  · intro m hm
    rw [← Int.natAbs_dvd_natAbs]
    exact (lcmAll_dvd_iff xs _).mpr (fun x h => Int.natAbs_dvd_natAbs.mpr (hm x h))

/-- **C06** A zero in the set is never answered with a number, the empty set gives 0. -/
theorem C06_lcm_set_zero (xs : List Int) (v : Int) : (0 ∈ xs → lcmSet xs ≠ .ok v) ∧ lcmSet [] = .ok 0 :=
  ⟨fun h => lcmSet_zero h v, rfl⟩

example : gcd2 (-12) 18 = .ok 6 ∧ gcdList [12, 0, -18, 30] = .ok 6 ∧ lcm2 (-4) 6 = .ok 12 ∧ lcmSet [4, 6, 10] = .ok 60 ∧
    lcm2 65536 65537 = .error .undefined := by decide +kernel

/-! ## C05 -/

/-- **C05** Whenever ticks per quarter are found, they are the least common multiple of all (rounded, positive) `<divisions>` in all
parts, or 0 if there are none. -/
theorem C05_scale_is_least_common_multiple (score : List (List (List (Elem P)))) (G : Int) (h : findMaxDivisionsPerQuarter score = .ok G) :
    (∀ part ∈ score, ∀ m ∈ part, ∀ a, Elem.attributes a ∈ m → ∀ x, a.divisions = some x → 0 < roundMicro x → roundMicro x ∣ G) ∧
    (∀ G' : Int, (∀ part ∈ score, ∀ m ∈ part, ∀ a, Elem.attributes a ∈ m → ∀ x, a.divisions = some x → 0 < roundMicro x → roundMicro x ∣ G') →
      (∃ part ∈ score, ∃ m ∈ part, ∃ a, Elem.attributes a ∈ m ∧ ∃ x, a.divisions = some x ∧ 0 < roundMicro x) → 0 < G ∧ G ∣ G') := by
  unfold findMaxDivisionsPerQuarter at h
  by_cases hne : foundDivisions score = []
  · have hno : ∀ d, d ∉ foundDivisions score := by rw [hne]; simp
    refine ⟨?_, ?_⟩
    · intro part hp m hm a ha x hx hpos
      exact absurd ((mem_foundDivisions score _).mpr ⟨hpos, part, hp, m, hm, a, ha, x, hx, rfl⟩) (hno _)
    · rintro G' _ ⟨part, hp, m, hm, a, ha, x, hx, hpos⟩
      exact absurd ((mem_foundDivisions score _).mpr ⟨hpos, part, hp, m, hm, a, ha, x, hx, rfl⟩) (hno _)
  · have hf := lcmSet_ok h
    have hv := lcmSet_value h hne
    refine ⟨?_, ?_⟩
    · intro part hp m hm a ha x hx hpos
      have hmem := (mem_foundDivisions score _).mpr ⟨hpos, part, hp, m, hm, a, ha, x, hx, rfl⟩
      rw [hv, ← Int.natAbs_dvd_natAbs]
      exact (lcmAll_dvd_iff _ _).mp (dvd_refl _) _ hmem
    · rintro G' hG' _
      rw [hv]
      refine ⟨by have := lcmAll_pos (fun x hx => (hf x hx).2); omega, ?_⟩
      rw [← Int.natAbs_dvd_natAbs]
      refine (lcmAll_dvd_iff _ _).mpr (fun d hd => ?_)
      obtain ⟨hpos, part, hp, m, hm, a, ha, x, hx, rfl⟩ := (mem_foundDivisions score d).mp hd
      exact Int.natAbs_dvd_natAbs.mpr (hG' part hp m hm a ha x hx hpos)

/-- **C05** A whole number of divisions is rescaled without rounding, if the divisions divide the scale (as they do by the
theorem above). -/
theorem C05_rescaling_is_exact (divisions G k : Int) (hd : 0 < divisions) (h : divisions ∣ G) :
    ∃ t : Int, convertDuration divisions G (k * MICRO) = some t ∧ t * divisions = k * G := by
  obtain ⟨q, rfl⟩ := h
  refine ⟨k * q, convertDuration_exact hd ?_, ?_⟩ <;> ring

/-- **C05** For every score of any number of parts and measures with whole durations, in which each part declares its divisions before
its first note, and whatever divisions the parts and measures use: reading succeeds, and each note of each measure of each part has
(in quarter notes) exactly the time and length MusicXML assigns to it.

Missing from the full property: chord members of different lengths and durations that are no whole number of divisions. -/
theorem C05_score_times_partial (parts : List (Int × List (List (Elem P)))) (G : Int) (h0 : 0 < G)
    (hG : findMaxDivisionsPerQuarter (parts.map (·.2)) = .ok G)
    (hd : ∀ p ∈ parts, ∀ m ∈ p.2.head?, declares m = true) (hp : ∀ p ∈ parts, p.2 ≠ [] ∧ PartTimed p.1 1 p.2) :
    ∃ rs, readScoreTimes parts = some (G, rs) ∧
      rs.map (fun part => part.map (fun r => r.notes.map (ReadNote.place G))) =
        parts.map (fun p => (partPlaced 1 p.2).map (fun ps => ps.map Placed.place)) := by
  have hdiv : ∀ p ∈ parts, ∀ m ∈ p.2, DividesAll G m := by
    intro p hpp m hm a ha k hk hx
    have := (C05_scale_is_least_common_multiple _ G hG).1 p.2 (List.mem_map_of_mem hpp) m hm a ha _ hx
    have hr : roundMicro (k * 1000000) = k := roundMicro_mul k
    rw [hr] at this
    exact this hk
  have key : ∀ (l : List (Int × List (List (Elem P)))) (dv : Int), (∀ p ∈ l, p ∈ parts) →
      ∃ rs, readParts G dv l = some rs ∧ rs.map (fun part => part.map (fun r => r.notes.map (ReadNote.place G))) =
        l.map (fun p => (partPlaced 1 p.2).map (fun ps => ps.map Placed.place)) := by
    intro l
    induction l with
    | nil => intro dv _; exact ⟨[], rfl, rfl⟩
    | cons p l ih =>
      intro dv hl
      have hmem := hl p (by simp)
      obtain ⟨hne, hpt⟩ := hp p hmem
      obtain ⟨rs, t, g1, _, g3⟩ := readMeasures_placed h0 p.2 1 (by omega) (one_dvd _) hpt (hdiv p hmem)
      obtain ⟨rss, g4, g5⟩ := ih t (fun q hq => hl q (by simp [hq]))
      refine ⟨rs :: rss, ?_, ?_⟩
      · simp only [readParts, readPart, Option.bind_eq_bind]
        rw [readMeasures_declares (hd p hmem) hne _ 1, g1]
        simp only [Option.bind_some]
        rw [g4]; rfl
      · simp only [List.map_cons]; rw [g3, g5]
  obtain ⟨rs, g1, g2⟩ := key parts (-1) (fun p h => h)
  exact ⟨rs, by unfold readScoreTimes; rw [hG]; simp only; rw [g1]; rfl, g2⟩

/-- a part with 4 divisions, a part with 6 divisions that changes to 10 in its second measure -/
def exParts : List (Int × List (List (Elem String))) :=
  [(1, [[.attributes { divisions := some 4000000 }, exElem false 4 "c", exElem false 2 "d"]]),
   (1, [[.other, .attributes { divisions := some 6000000 }, exElem false 9 "e"],
        [.attributes { divisions := some 10000000 }, exElem false 5 "f", exElem true 5 "g", .backup 5000000, exElem false 15 "a"]])]

/-- ticks per quarter, and time and length of all notes of a score -/
def allTicks (parts : List (Int × List (List (Elem String)))) : Option (Int × List (String × Int × Int)) :=
  (readScoreTimes parts).map (fun x => (x.1, x.2.flatten.flatMap (fun r => r.notes.map (fun n => (n.note.content, n.note.tick, n.note.ticks)))))

/-- ticks per quarter of the example: 60; time and length of the notes in ticks -/
example : allTicks exParts =
    some (60, [("c", 0, 60), ("d", 60, 30), ("e", 0, 90), ("f", 0, 30), ("g", 0, 30), ("a", 0, 90)]) := by decide +kernel

/-- The example meets the hypotheses. -/
example : 0 < 60 ∧ (findMaxDivisionsPerQuarter (exParts.map (·.2)) = .ok 60) ∧ (∀ p ∈ exParts, ∀ m ∈ p.2.head?, declares m = true) ∧
    ∀ p ∈ exParts, p.2 ≠ [] ∧ PartTimed p.1 1 p.2 := by
  refine ⟨by decide, by decide +kernel, by decide, ?_⟩
  intro p hp
  have hs : ∀ m : List (Elem String), (∀ n, Elem.note n ∈ m → n.staff = none) → (∀ a, Elem.attributes a ∈ m → a.clefs = []) → StavesExist 1 m := by
    intro m h1 h2
    exact ⟨by decide, fun n hn s hs => by rw [h1 n hn] at hs; simp at hs, fun a ha c hc => by rw [h2 a ha] at hc; simp at hc⟩
  simp only [exParts, List.mem_cons, List.not_mem_nil, or_false] at hp
  rcases hp with rfl | rfl
  · refine ⟨by simp, ⟨⟨?_, ⟨4, rfl⟩, by decide, by simp, by simp, ⟨2, rfl⟩, by decide, by simp, by simp, trivial⟩, hs _ ?_ ?_, trivial⟩⟩
    · intro d hd; exact ⟨4, by decide, by simpa using hd.symm⟩
    · intro n hn; simp [exElem] at hn; rcases hn with rfl | rfl <;> rfl
    · intro a ha; simp [exElem] at ha; rw [ha]
  · refine ⟨by simp, ⟨⟨?_, ⟨9, rfl⟩, by decide, by simp, by simp, trivial⟩, hs _ ?_ ?_,
      ⟨?_, ⟨5, rfl⟩, by decide, by simp, by simp, ⟨5, rfl⟩, by decide, by simp, ?_, ⟨5, rfl⟩, ?_, ⟨15, rfl⟩, by decide, by simp, by simp, trivial⟩, hs _ ?_ ?_, trivial⟩⟩
    · intro d hd; exact ⟨6, by decide, by simpa using hd.symm⟩
    · intro n hn; simp [exElem] at hn; rw [hn]
    · intro a ha; simp [exElem] at ha; rw [ha]
    · intro d hd; exact ⟨10, by decide, by simpa using hd.symm⟩
    · intro _; simp
    · simp [Clock.step, Clock.init, Clock.quarters]
    · intro n hn; simp [exElem] at hn; rcases hn with rfl | rfl | rfl <;> rfl
    · intro a ha; simp [exElem] at ha; rw [ha]

/-- **C05 is false for files without any `<divisions>`**: ticks per quarter become 0, and each division counts as one tick. -/
theorem C05_missing_divisions :
    allTicks [(1, [[exElem false 4 "c"]])] = some (0, [("c", 0, 4)]) := by decide +kernel

/-- **C05 is false for divisions below one half** (possible in MusicXML, divisions are decimals): they are rounded to 0
and reading divides by zero. -/
theorem C05_small_divisions_undefined :
    readScoreTimes [(1, [[.attributes { divisions := some 1000000 }, exElem false 4 "c"]]), (1, [[.attributes { divisions := some 250000 }, exElem false 1 "c"]])] = none := by
  decide +kernel

/-- **C05 is false if the common scale is no `int`**: for example the divisions 65536 and 65537. -/
theorem C05_scale_overflow :
    findMaxDivisionsPerQuarter [[[Elem.attributes { divisions := some 65536000000 }]], [[(Elem.attributes { divisions := some 65537000000 } : Elem String)]]] =
      .error .undefined := by decide +kernel

end Mx.Props
