import Verif.Proofs.Directions

/-
Directions that come back unchanged, and what follows for several rounds.
-/
open Spec
namespace Mx.Directions
open Mx.Spec

theorem kept_at {m : PositionMembers} (h1 : m.defaultXY = true) (h2 : m.relativeXY = true) {p : PositionData} (h : PlainAt m p) : keptPosition m p = p :=
  keptPosition_self m (by rw [if_pos h1]; exact ⟨h.defaultX, h.defaultY⟩) (by rw [if_pos h2]; exact ⟨h.relativeX, h.relativeY⟩) h.placement h.halign h.valign

theorem line_self {l : LineData} (h : PlainLine l) : keptLine l = l := by
  obtain ⟨_, h1, h2, h3, h4⟩ := h
  obtain ⟨a, b, c, d, e⟩ := l
  simp only at h1 h2 h3 h4
  rw [keptLine, keptNum_self h1, keptNum_self h2, h3, h4]

theorem wedgeStop_self {w : WedgeStop} (h : PlainWedgeStop w) : keptWedgeStop w = w := by
  obtain ⟨h1, _, h3, h4⟩ := h
  rw [keptWedgeStop, keptNum_self h3, kept_at rfl rfl h4]
  obtain ⟨a, b, c⟩ := w
  simp only at h1
  rw [h1]

theorem wedgeStart_self {w : WedgeStart} (h : PlainWedgeStart w) : keptWedgeStart w = w := by
  obtain ⟨h1, h2, _, h3, h4, h5, h6⟩ := h
  rw [keptWedgeStart, keptNum_self h3, kept_at rfl rfl h5, line_self h4, if_neg h2]
  obtain ⟨a, b, c, d, e, f⟩ := w
  simp only at h1 h6
  rw [h1, h6]

theorem ottavaStart_self {t : Int} {o : OttavaStart} (h : PlainOttavaStart t o) : keptOttavaStart t o = o := by
  obtain ⟨h1, h2, h3, h4⟩ := h
  rw [keptOttavaStart, if_neg h1, line_self h3]
  obtain ⟨⟨n, k, p, q, l⟩, t⟩ := o
  simp only at h2 h4
  rw [h2]
  simp only
  congr
  rw [← h4]

theorem tempo_self {t : TempoData} (h : PlainTempo t) : keptTempo t = t := by
  obtain ⟨h1, h2, h3, _⟩ := h
  rw [keptTempo, if_neg h2, max_eq_right h3]
  exact h1.symm

theorem lines_self {n : Int} (h : 0 ≤ n ∧ n ≤ 3) : keptLines n = n := by
  unfold keptLines
  split <;> omega

theorem font_self {f : FontData} (h : PlainFont f) : (keptPrint wordsPrint { fontData := f }).fontData = f := by
  obtain ⟨_, h2, h3, _, h5, h6, h7⟩ := h
  rw [keptPrint]
  simp only [wordsPrint]
  rw [lines_self h5, lines_self h6, lines_self h7]
  obtain ⟨a, b, c, d, e, f, g, k, l⟩ := f
  simp only at h2 h3
  simp only [if_true, true_and]
  congr 1
  · split
    · rfl
    · rename_i hh; exact (h2 hh).symm
  · split
    · rename_i hh
      rw [if_neg (h3.mp hh)]
    · rename_i hh
      by_contra hn
      exact hh (h3.mpr (fun e => hn e.symm))

theorem words_self {w : WordsData} (h : PlainWords w) : keptWords w = w := by
  obtain ⟨h1, h2, h3, h4⟩ := h
  rw [keptWords, kept_at rfl rfl h1, font_self h2]
  obtain ⟨a, b, c, d, e⟩ := w
  simp only at h3 h4
  rw [h3, h4]

theorem final_self {d : DirectionData} (h : ∀ m ∈ d.marks, PlainDynamic d m ∨ PlainPedal d m) : finalPlacement d = d.placement := by
  unfold finalPlacement
  cases hl : (d.marks.filter (fun m => isMarkPedal m.markType && decide (m.positionData.placement ≠ .unspecified))).getLast? with
  | none => rfl
  | some m =>
    have hm := List.mem_of_getLast? hl
    rw [List.mem_filter] at hm
    rcases h m hm.1 with hd | hp
    · exfalso
      have h1 := hd.dynamic
      have h2 : isMarkPedal m.markType = true := by
        have := hm.2
        rw [Bool.and_eq_true] at this
        exact this.1
      have h3 : m.markType = .pedal ∨ m.markType = .damp := by simpa using of_decide_eq_true h2
      rcases h3 with h3 | h3 <;> rw [h3] at h1 <;> exact absurd h1 (by decide)
    · exact hp.placement

theorem mark_self {d : DirectionData} (hf : finalPlacement d = d.placement) {m : MarkData} (h : PlainDynamic d m ∨ PlainPedal d m) : keptDirectionMark d m = some m := by
  rcases h with h | h
  · rw [keptDirectionMark, if_pos h.dynamic, keptMark, h.type]
    have hp : keptMarkPosition m = m.positionData := by
      have h1 : ¬ (isMarkFermata m.markType = true ∨ m.markType = .fingernails) := by
        have := h.dynamic
        revert this
        cases m.markType <;> decide
      rw [keptMarkPosition, if_neg h1, if_pos h.dynamic, kept_at rfl rfl h.position]
    rw [hp]
    have h1 := h.tick
    have h2 := h.print
    obtain ⟨a, b, c, e, f⟩ := m
    simp only at h1 h2
    rw [h1, h2]
  · have h1 : isMarkDynamic m.markType = false ∧ isMarkPedal m.markType = true := by
      rcases h.pedal with e | e <;> rw [e] <;> decide
    rw [keptDirectionMark, if_neg (by rw [h1.1]; decide), if_pos h1.2, hf]
    have hp := kept_at rfl rfl h.position
    have h2 := h.tick
    have h3 := h.print
    have h4 := h.placement
    have h5 := h.name
    have e1 : keptPosition textMembers { m.positionData with placement := .unspecified } = keptPosition textMembers m.positionData := rfl
    rw [← e1, hp]
    obtain ⟨a, b, c, e, ⟨p1, p2, p3, p4, p5, p6, p7⟩⟩ := m
    simp only at h2 h3 h4 h5
    rw [h2, h3, ← h4, ← h5]

theorem map_self {α : Type} {f : α → α} {l : List α} (h : ∀ a ∈ l, f a = a) : l.map f = l := by
  rw [List.map_congr_left h, List.map_id'' (fun _ => rfl)]

theorem filterMap_self {α : Type} {f : α → Option α} {l : List α} (h : ∀ a ∈ l, f a = some a) : l.filterMap f = l := by
  induction l with
  | nil => rfl
  | cons a l ih => rw [List.filterMap_cons_some (h a (by simp)), ih (fun b hb => h b (by simp [hb]))]

theorem plain_fits {s t : Int} {d : DirectionData} (h : PlainDirection s t d) : DirectionFits d where
  marks m hm := by
    rcases h.marks m hm with hd | hp
    · exact ⟨hd.position.fits, by rw [hd.print]; intro e; cases e⟩
    · exact ⟨hp.position.fits, by rw [hp.print]; intro e; cases e⟩
  wedgeStops w hw := ⟨(h.wedgeStops w hw).2.1, (h.wedgeStops w hw).2.2.2.fits⟩
  wedgeStarts w hw := by
    obtain ⟨_, _, h3, _, h4, h5, _⟩ := h.wedgeStarts w hw
    exact ⟨h3, h5.fits, h4.1⟩
  ottavaStarts o ho := (h.ottavaStarts o ho).2.2.1.1
  bracketStarts b hb := by
    obtain ⟨h1, h2, _⟩ := h.bracketStarts b hb
    unfold InInt INT_MIN INT_MAX; omega
  tempos x hx := by
    obtain ⟨h1, _, _, h4⟩ := h.tempos x hx
    exact ⟨by rw [h1], h4⟩
  words w hw := by
    obtain ⟨h1, h2, _, _⟩ := h.words w hw
    refine ⟨h1.fits, h2.size, h2.family, ?_, ?_, ?_⟩
    · have := h2.underline; unfold InInt INT_MIN INT_MAX; omega
    · have := h2.overline; unfold InInt INT_MIN INT_MAX; omega
    · have := h2.lineThrough; unfold InInt INT_MIN INT_MAX; omega
  chords c hc := by rw [h.chords] at hc; cases hc

theorem bracket_self {t : Int} {d : DirectionData} (hf : finalPlacement d = d.placement) {b : SpannerStart} (h : PlainBracketStart t d b) : keptBracketStart t d b = b := by
  obtain ⟨h1, h2, h3⟩ := h
  rw [keptBracketStart, hf, if_pos (by omega), min_eq_right h2]
  exact h3.symm

theorem kept_self {s t : Int} {d : DirectionData} (h : PlainDirection s t d) : keptDirections s t d = [d] := by
  have hf := final_self h.marks
  rw [keptDirections, if_pos h.notEmpty, h.chords, if_neg (by simp), List.append_nil, keptDirection]
  rw [map_self (fun a ha => tempo_self (h.tempos a ha)), filterMap_self (fun a ha => mark_self hf (h.marks a ha)), map_self (fun a ha => wedgeStart_self (h.wedgeStarts a ha)),
    map_self (fun a ha => wedgeStop_self (h.wedgeStops a ha)), map_self (fun a ha => ottavaStart_self (h.ottavaStarts a ha)),
    map_self (f := keptOttavaStop t) (fun a ha => (h.ottavaStops a ha).symm), map_self (fun a ha => bracket_self hf (h.bracketStarts a ha)),
    map_self (fun a ha => words_self (h.words a ha)), hf]
  have hs : (d.isStaffValueSpecified || decide (s ≠ 0)) = d.isStaffValueSpecified := by
    rcases h.staff with e | e
    · rw [e]; simp
    · rw [e]; rfl
  rw [hs]
  have h1 := h.chords
  have h2 := h.bracketStops
  have h3 := h.segnos
  have h4 := h.codas
  have h5 := h.rehearsals
  obtain ⟨a1, a2, a3, a4, a5, a6, a7, a8, a9, a10, a11, a12, a13, a14, a15, a16⟩ := d
  simp only at h1 h2 h3 h4 h5
  rw [h1, h2, h3, h4, h5]

theorem chord_fits {d : DirectionData} {c : ChordData} (h : PlainChord d c) : DirectionFits d := by
  rw [h.only]
  constructor
  case chords =>
    intro x hx
    rw [List.mem_singleton.mp hx]
    exact ⟨h.position.fits, h.rootAlter, h.bassAlter, fun m hm => (h.misc m hm).1⟩
  all_goals intro x hx; cases hx

theorem chord_self {d : DirectionData} {c : ChordData} (h : PlainChord d c) (s t : Int) : keptDirections s t d = [d] := by
  have ho := h.only
  have hw : ¬ WritesDirection d := by rw [ho]; simp [WritesDirection]
  have hc : d.chords = [c] := by rw [ho]
  rw [keptDirections, if_neg hw, if_pos (by rw [hc]; simp), List.nil_append, keptHarmony, hc]
  have hk : keptChord d c = c := by
    rw [keptChord, hc, if_neg h.root, if_neg h.kind, Props.C25_normalised_kept _ h.text, map_self (f := fun e : Extension => { e with printObject := .unspecified })]
    · have h1 : keptPosition harmonyMembers (([c].head?.map (fun c => c.positionData)).getD {}) = c.positionData := kept_at rfl rfl h.position
      have h2 : ([c].flatMap (fun c => c.miscData)).map keptMisc = c.miscData := by
        rw [List.flatMap_singleton, map_self]
        intro m hm
        rw [keptMisc, if_neg (h.misc m hm).2]
      have h3 : (if c.bass = .unspecified then 0 else c.bassAlter) = c.bassAlter := by
        split
        · rename_i e; exact (h.bass e).symm
        · rfl
      rw [h1, h2, h3]
    · intro e he
      have := h.extensions e he
      obtain ⟨a, b, c, d⟩ := e
      simp only at this
      rw [this]
  rw [List.map_cons, List.map_nil, hk]
  have hp : ([c].head?.map (fun c => c.positionData.placement)).getD .unspecified = d.placement := h.placement
  rw [hp]
  congr 1
  exact ho.symm

end Mx.Directions
