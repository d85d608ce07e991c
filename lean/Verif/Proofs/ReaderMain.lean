import Verif.Proofs.ReaderSpecialK
import Verif.Proofs.ReaderScore

/-
All classes, and what follows for whole documents.
-/
open Mx.Spec
namespace Mx.Content

/-- The classes with an element of their own whose readers are not a plain loop. -/
def specialReaders : List Cls := [.ScoreInstrument, .Rest, .Unpitched, .TimewiseMeasure, .Dynamics, .DirectionType, .PartwiseMeasure, .TimewisePart, .Note, .ScorePartwise, .ScoreTimewise, .PartList,
  .MetronomeTuplet, .TimeModification, .ScorePart, .Key, .Time, .Harmony, .Metronome, .Arrow, .Credit, .Lyric, .Play, .Percussion, .NoteheadText]

theorem special_reads : ∀ c ∈ specialReaders, ClassReads c := by
  have never : ∀ c, (∀ d k ss, ¬ ReadableHere c d k ss) → ClassReads c := fun c h N _ d k ss hg => absurd (here_readable hg) (h d k ss)
  intro c hc
  simp only [specialReaders, List.mem_cons, List.not_mem_nil, or_false] at hc
  rcases hc with rfl | rfl | rfl | rfl | rfl | rfl | rfl | rfl | rfl | rfl | rfl | rfl | rfl | rfl | rfl | rfl | rfl | rfl | rfl | rfl | rfl | rfl | rfl | rfl | rfl
  · exact scoreInstrument_reads
  · exact rest_reads
  · exact unpitched_reads
  · exact timewiseMeasure_reads
  · exact dynamics_reads
  · exact directionType_reads
  · exact partwiseMeasure_reads
  · exact timewisePart_reads
  · exact note_reads
  · exact scorePartwise_reads
  · exact scoreTimewise_reads
  · exact partList_reads
  · exact metronomeTuplet_reads
  · exact timeModification_reads
  · exact scorePart_reads
  · exact key_reads
  · exact time_reads
  · exact harmony_reads
  · exact metronome_reads
  · exact arrow_reads
  · exact credit_reads
  · exact lyric_reads
  · exact never _ (fun _ _ _ h => h)
  · exact never _ (fun _ _ _ h => h)
  · exact noteheadText_reads

theorem readers_covered : (allCls.all fun c => Nat.beq c.info.name 0 || plainB c || decide (c ∈ specialReaders)) = true := by decide +kernel

theorem class_reads {c : Cls} (h : c.info.name ≠ 0) : ClassReads c := by
  have := List.all_eq_true.mp readers_covered c (mem_allCls c)
  simp only [Bool.or_eq_true, decide_eq_true_eq] at this
  rcases this with (h' | h') | h'
  · exact absurd (Nat.eq_of_beq_eq_true h') h
  · exact plain_reads h'
  · exact special_reads c h'

/-- Every object can be read back. -/
theorem read_all : ∀ N, RdBelow N
  | 0 => fun _ h => absurd h.1 (Nat.not_lt_zero _)
  | N + 1 => by
    have hrd := read_all N
    intro n hg hn
    have hh : Here N n := ⟨by have := hg.1; omega, hg.2⟩
    refine ⟨by rw [kidOf, child_name, whole_name], ?_⟩
    intro t hb hk
    cases n with
    | leaf tag h d =>
      cases t with
      | comp => cases hk
      | leaf t' h' d' =>
        cases hk
        refine ⟨.leaf tag h d, ?_, rfl, rfl, hg.2.1⟩
        rfl
    | comp c d k ss =>
      obtain ⟨d0, k0, ss0, rfl⟩ := kind_comp hk
      have hname : c.info.name ≠ 0 := by
        intro e
        simp [Node.kind, Kind.named, e] at hn
      obtain ⟨k', ss', e1, e2, e3⟩ := class_reads hname N hrd d k ss hh d0 k0 ss0 hb c.info.name
      refine ⟨.comp c d k' ss', ?_, rfl, ?_, e2⟩
      · rw [kidOf, show (whole (.comp c d k ss)).element = .elem c.info.name d (whole (.comp c d k ss)).kids from rfl, Xml.child, childList_eq]
        simp only [readInto]
        exact e1
      · show Xml.elem c.info.name d (whole (.comp c d k' ss')).kids = .elem c.info.name d (whole (.comp c d k ss)).kids
        rw [e3]

end Mx.Content
