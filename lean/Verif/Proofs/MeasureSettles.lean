import Verif.Proofs.MeasureRoundTripVoices
import Verif.Proofs.MeasureVoices
import Mathlib.Data.List.Chain

/-! The voices of a measure that has been written and read. -/
namespace Mx.Measure
open Spec

variable {P : Type}

/-- A note that is read after another one: in the same voice and not before its end, or in a new voice and before its end. -/
def Next (p r : ReadNote P) : Prop :=
  (r.voice = p.voice ∧ NoOverlap p.note r.note ∧ PairKept p.note r.note) ∨ (p.voice < r.voice ∧ r.note.tick < p.note.tick + p.note.ticks)

/-- A sequence of notes as it can be read. -/
def Trail : Option (ReadNote P) → List (ReadNote P) → Prop
  | _, [] => True
  | prev, r :: rest =>
    NoteKept r.note ∧ (∀ p, prev = some p → Next p r) ∧
    (r.note.isChord = true →
      (∃ p, prev = some p ∧ p.voice = r.voice ∧ SameChord p.note r.note) ∨ (∃ q, rest.head? = some q ∧ q.voice = r.voice ∧ SameChord r.note q.note)) ∧
    Trail (some r) rest

/-- The state of the reader behind a note. -/
structure After (tick vi : Int) (p : ReadNote P) : Prop where
  voice : p.voice = vi
  length : 0 ≤ p.note.ticks
  position : tick = p.note.tick + p.note.ticks

/-- The state of the reader within a voice. -/
structure Within (tick vi : Int) (inChord : Bool) (p : ReadNote P) (ns : List (NoteData P)) : Prop where
  voice : p.voice = vi
  length : 0 ≤ p.note.ticks
  goesOn : inChord = true → p.note.isChord = true ∧ ∀ n, ns.head? = some n → n.tick = p.note.tick ∧ n.tick = tick
  ends : inChord = false → tick = p.note.tick + p.note.ticks

theorem After.within {tick vi : Int} {p : ReadNote P} (h : After tick vi p) (ns : List (NoteData P)) : Within tick vi false p ns :=
  ⟨h.voice, h.length, (fun e => by cases e), fun _ => h.position⟩

theorem asRead_trail (staff voice : Int) (L : List (ReadNote P)) : ∀ (ns : List (NoteData P)) (tick vi : Int) (inChord : Bool) (prev : Option (ReadNote P)),
    VoiceKept ns →
    (∀ p, prev = some p → Within tick vi inChord p ns) →
    (inChord = true → prev ≠ none ∧ ∃ n, ns.head? = some n ∧ n.isChord = true) →
    (∀ prev', (prev' = none → prev = none ∧ ns = []) → (∀ p, prev' = some p → After (tickAfter tick ns) (voiceAfter tick vi ns) p) → Trail prev' L) →
    Trail prev (asRead staff voice tick vi inChord ns ++ L) := by
  intro ns
  induction ns with
  | nil =>
    intro tick vi inChord prev _ hw hc hL
    have hf : inChord = false := by
      cases inChord with
      | false => rfl
      | true => obtain ⟨_, n, hn, _⟩ := hc rfl; simp at hn
    refine hL prev (fun h => ⟨h, rfl⟩) ?_
    intro p hp
    have w := hw p hp
    exact ⟨w.voice, w.length, w.ends hf⟩
  | cons n rest ih =>
    intro tick vi inChord prev hv hw hc hL
    have hn : NoteKept n := hv.1 n (by simp)
    have hlen : 0 ≤ n.ticks := hn.2.2
    have hv' : VoiceKept rest := ⟨fun x hx => hv.1 x (by simp [hx]), by
      cases rest with
      | nil => exact List.IsChain.nil
      | cons b t => exact (List.isChain_cons_cons.mp hv.2).2⟩
    have hchord : (inChord || chordGoesOn n rest.head?) = true → n.isChord = true := by
      intro h
      cases hi : inChord with
      | true =>
        obtain ⟨_, n', h1, h2⟩ := hc hi
        simp at h1; subst h1; exact h2
      | false =>
        rw [hi] at h
        simp only [Bool.false_or] at h
        cases rest with
        | nil => simp [chordGoesOn] at h
        | cons q t => exact ((continues_iff n q).mp h).1
    simp only [asRead, List.cons_append]
    refine ⟨hn, ?_, ?_, ?_⟩
    · intro p hp
      have w := hw p hp
      cases hi : inChord with
      | true =>
        obtain ⟨w1, w2⟩ := w.goesOn hi
        obtain ⟨e1, e2⟩ := w2 n rfl
        refine Or.inl ⟨?_, Or.inr ⟨w1, by simp, e1⟩, ?_⟩
        · show (if n.tick < tick then vi + 1 else vi) = p.voice
          rw [if_neg (by omega), w.voice]
        · intro _ _ h3
          simp at h3
      | false =>
        have w1 := w.ends hi
        by_cases hlt : n.tick < tick
        · refine Or.inr ⟨?_, ?_⟩
          · show p.voice < (if n.tick < tick then vi + 1 else vi)
            rw [if_pos hlt, w.voice]; omega
          · show n.tick < _
            omega
        · refine Or.inl ⟨?_, Or.inl ?_, ?_⟩
          · show (if n.tick < tick then vi + 1 else vi) = p.voice
            rw [if_neg hlt, w.voice]
          · show _ ≤ n.tick
            omega
          · intro _ h2 _
            have h2 : n.tick = p.note.tick := h2
            have := w.length
            omega
    · intro hflag
      have hflag : (inChord || chordGoesOn n rest.head?) = true := hflag
      cases hi : inChord with
      | true =>
        obtain ⟨h1, _⟩ := hc hi
        obtain ⟨p, hp⟩ := Option.ne_none_iff_exists'.mp h1
        obtain ⟨w1, w2⟩ := (hw p hp).goesOn hi
        obtain ⟨e1, e2⟩ := w2 n rfl
        refine Or.inl ⟨p, hp, ?_, w1, by simp, e1⟩
        show p.voice = (if n.tick < tick then vi + 1 else vi)
        rw [if_neg (by omega), (hw p hp).voice]
      | false =>
        rw [hi] at hflag
        simp only [Bool.false_or] at hflag
        cases rest with
        | nil => simp [chordGoesOn] at hflag
        | cons q t =>
          have hs := (continues_iff n q).mp hflag
          have hflag' : chordGoesOn n (some q) = true := hflag
          simp only [asRead, List.cons_append, List.head?_cons, Option.some.injEq, exists_eq_left']
          refine Or.inr ⟨?_, ?_, ?_, hs.2.2⟩
          · simp only [hflag', if_true]
            rw [if_neg (by have := hs.2.2; omega)]
          · simp only [Bool.false_or]; exact hflag
          · simp only [hflag', Bool.true_or]
    · refine ih _ _ _ _ hv' ?_ ?_ ?_
      · intro p hp
        simp only [Option.some.injEq] at hp
        subst hp
        refine ⟨rfl, hlen, ?_, ?_⟩
        · intro hg
          refine ⟨by simp [hg], ?_⟩
          intro q hq
          cases rest with
          | nil => simp at hq
          | cons q' t =>
            simp only [List.head?_cons, Option.some.injEq] at hq
            subst hq
            have hs := (continues_iff n q').mp hg
            refine ⟨hs.2.2, ?_⟩
            rw [if_pos hg]; exact hs.2.2
        · intro hg
          rw [if_neg (by rw [hg]; simp)]
      · intro hg
        refine ⟨by simp, ?_⟩
        cases rest with
        | nil => simp [chordGoesOn] at hg
        | cons q t => exact ⟨q, rfl, ((continues_iff n q).mp hg).2.1⟩
      · intro prev' h1 h2
        refine hL prev' ?_ ?_
        · intro h3
          have := h1 h3
          simp at this
        · intro p hp
          exact h2 p hp

theorem voicesRead_trail (staff : Int) : ∀ (vs : List (Int × List (NoteData P))) (acc : Int × Int) (prev : Option (ReadNote P)),
    (∀ v ∈ vs, VoiceKept v.2) → (∀ p, prev = some p → After acc.1 acc.2 p) → Trail prev (voicesRead staff acc vs) := by
  intro vs
  induction vs with
  | nil => intro acc prev _ _; trivial
  | cons v vs ih =>
    intro acc prev hv hp
    rw [voicesRead]
    refine asRead_trail staff _ _ v.2 acc.1 acc.2 false prev (hv v (by simp)) (fun p h => (hp p h).within _) (fun h => by cases h) ?_
    intro prev' _ h2
    exact ih _ prev' (fun w hw => hv w (by simp [hw])) h2

/-- Notes in groups. -/
def ungroup (staff : Int) (gs : List (Int × List (NoteData P))) : List (ReadNote P) := gs.flatMap (fun g => g.2.map (ReadNote.mk staff g.1))

/-- The note before, if it is in the same voice. -/
def sameVoice (prev : Option (ReadNote P)) (k : Int) : Option (NoteData P) :=
  match prev with
  | none => none
  | some p => if p.voice = k then some p.note else none

/-- Voices of notes that can be read. -/
structure Groups (gs : List (Int × List (NoteData P))) : Prop where
  noEmpty : NoEmpty gs
  notes : ∀ g ∈ gs, ∀ n ∈ g.2, NoteKept n
  noOverlap : ∀ g ∈ gs, g.2.IsChain NoOverlap
  pairs : ∀ g ∈ gs, g.2.IsChain PairKept
  overlap : gs.IsChain (fun v w => v.1 < w.1 ∧ voiceStart w.2 < voiceEnd v.2)

theorem groups_of_trail (staff : Int) : ∀ (L : List (ReadNote P)) (prev : Option (ReadNote P)), (∀ r ∈ L, r.staff = staff) → Trail prev L →
    ∃ gs, L = ungroup staff gs ∧ Groups gs ∧ (∀ g, gs.head? = some g → ChordsComplete (sameVoice prev g.1) g.2) ∧ ∀ g ∈ gs.tail, ChordsComplete none g.2 := by
  intro L
  induction L with
  | nil =>
    intro prev _ _
    exact ⟨[], rfl, ⟨by simp [NoEmpty], by simp, by simp, by simp, List.IsChain.nil⟩, by simp, by simp⟩
  | cons r rest ih =>
    intro prev hs ht
    obtain ⟨t1, t2, t3, t4⟩ := ht
    obtain ⟨gs, g1, g2, g3, g4⟩ := ih (some r) (fun x hx => hs x (by simp [hx])) t4
    have hr : ReadNote.mk staff r.voice r.note = r := by rw [← hs r (by simp)]
    have hclause : ∀ (ns : List (NoteData P)), (∀ q, rest.head? = some q → q.voice = r.voice → ns.head? = some q.note) → r.note.isChord = true →
        (∃ p ∈ sameVoice prev r.voice, SameChord p r.note) ∨ (∃ q ∈ ns.head?, SameChord r.note q) := by
      intro ns hns hc
      rcases t3 hc with ⟨p, h1, h2, h3⟩ | ⟨q, h1, h2, h3⟩
      · exact Or.inl ⟨p.note, by simp [sameVoice, h1, h2], h3⟩
      · exact Or.inr ⟨q.note, hns q h1 h2, h3⟩
    cases gs with
    | nil =>
      have hrest : rest = [] := g1
      subst hrest
      refine ⟨[(r.voice, [r.note])], by simp [ungroup, hr], ⟨by simp [NoEmpty], ?_, by simp, by simp, List.IsChain.singleton _⟩, ?_, by simp⟩
      · intro g hg n hn
        simp only [List.mem_singleton] at hg
        subst hg
        simp only [List.mem_singleton] at hn
        subst hn
        exact t1
      · intro g hg
        simp only [List.head?_cons, Option.some.injEq] at hg
        subst hg
        exact ⟨hclause [] (by simp), trivial⟩
    | cons g gt =>
      obtain ⟨k, ns⟩ := g
      have hne : ns ≠ [] := g2.noEmpty (k, ns) (by simp)
      obtain ⟨n, nt, rfl⟩ := List.exists_cons_of_ne_nil hne
      have hhead : rest.head? = some (ReadNote.mk staff k n) := by rw [g1]; rfl
      have hnext : Next r (ReadNote.mk staff k n) := by
        cases rest with
        | nil => simp at hhead
        | cons q t =>
          simp only [List.head?_cons, Option.some.injEq] at hhead
          rw [← hhead]
          exact t4.2.1 r rfl
      have hend : voiceEnd (r.note :: n :: nt) = voiceEnd (n :: nt) := by unfold voiceEnd; rw [List.getLast?_cons_cons]
      by_cases hk : k = r.voice
      · subst hk
        have hpair : NoOverlap r.note n ∧ PairKept r.note n := by
          rcases hnext with ⟨_, h1, h2⟩ | ⟨h1, _⟩
          · exact ⟨h1, h2⟩
          · simp at h1
        refine ⟨(r.voice, r.note :: n :: nt) :: gt, ?_, ⟨?_, ?_, ?_, ?_, ?_⟩, ?_, ?_⟩
        · rw [g1]; simp [ungroup, hr]
        · intro v hv
          rcases List.mem_cons.mp hv with rfl | hv
          · simp
          · exact g2.noEmpty v (by simp [hv])
        · intro v hv x hx
          rcases List.mem_cons.mp hv with rfl | hv
          · rcases List.mem_cons.mp hx with rfl | hx
            · exact t1
            · exact g2.notes _ (List.mem_cons_self ..) x hx
          · exact g2.notes v (by simp [hv]) x hx
        · intro v hv
          rcases List.mem_cons.mp hv with rfl | hv
          · exact List.isChain_cons_cons.mpr ⟨hpair.1, g2.noOverlap _ (List.mem_cons_self ..)⟩
          · exact g2.noOverlap v (by simp [hv])
        · intro v hv
          rcases List.mem_cons.mp hv with rfl | hv
          · exact List.isChain_cons_cons.mpr ⟨hpair.2, g2.pairs _ (List.mem_cons_self ..)⟩
          · exact g2.pairs v (by simp [hv])
        · cases gt with
          | nil => exact List.IsChain.singleton _
          | cons w wt =>
            have := List.isChain_cons_cons.mp g2.overlap
            refine List.isChain_cons_cons.mpr ⟨⟨this.1.1, ?_⟩, this.2⟩
            simp only
            rw [hend]; exact this.1.2
        · intro v hv
          simp only [List.head?_cons, Option.some.injEq] at hv
          subst hv
          refine ⟨hclause _ ?_, ?_⟩
          · intro q hq _
            rw [hhead] at hq
            simp only [Option.some.injEq] at hq
            subst hq; rfl
          · have := g3 _ rfl
            simpa [sameVoice] using this
        · intro v hv
          exact g4 v hv
      · have hlt : r.voice < k ∧ n.tick < r.note.tick + r.note.ticks := by
          rcases hnext with ⟨h1, _⟩ | h1
          · exact absurd h1 hk
          · exact h1
        refine ⟨(r.voice, [r.note]) :: (k, n :: nt) :: gt, ?_, ⟨?_, ?_, ?_, ?_, ?_⟩, ?_, ?_⟩
        · rw [g1]; simp [ungroup, hr]
        · intro v hv
          rcases List.mem_cons.mp hv with rfl | hv
          · simp
          · exact g2.noEmpty v hv
        · intro v hv x hx
          rcases List.mem_cons.mp hv with rfl | hv
          · rw [List.mem_singleton.mp hx]; exact t1
          · exact g2.notes v hv x hx
        · intro v hv
          rcases List.mem_cons.mp hv with rfl | hv
          · exact List.IsChain.singleton _
          · exact g2.noOverlap v hv
        · intro v hv
          rcases List.mem_cons.mp hv with rfl | hv
          · exact List.IsChain.singleton _
          · exact g2.pairs v hv
        · exact List.isChain_cons_cons.mpr ⟨⟨hlt.1, hlt.2⟩, g2.overlap⟩
        · intro v hv
          simp only [List.head?_cons, Option.some.injEq] at hv
          subst hv
          refine ⟨hclause [] ?_, trivial⟩
          intro q hq hv
          rw [hhead] at hq
          simp only [Option.some.injEq] at hq
          subst hq
          exact absurd hv hk
        · intro v hv
          rcases List.mem_cons.mp hv with rfl | hv
          · have := g3 _ rfl
            simpa [sameVoice, Ne.symm hk] using this
          · exact g4 v hv

theorem insert_groups (staff : Int) : ∀ (gs m : List (Int × List (NoteData P))), NoEmpty gs → gs.Pairwise (fun v w => v.1 < w.1) → (∀ w ∈ m, ∀ g ∈ gs, w.1 < g.1) →
    (ungroup staff gs).foldl (fun m r => insertNote r.voice r.note m) m = m ++ gs := by
  intro gs
  induction gs with
  | nil => intro m _ _ _; simp [ungroup]
  | cons g gs ih =>
    intro m hn hp hm
    have hu : ungroup staff (g :: gs) = g.2.map (ReadNote.mk staff g.1) ++ ungroup staff gs := rfl
    rw [hu, List.foldl_append, foldl_insert_new (fun v hv => hm v hv g (by simp)) g.2 (hn g (by simp)) staff]
    rw [List.pairwise_cons] at hp
    rw [ih _ (fun v hv => hn v (by simp [hv])) hp.2]
    · simp
    · intro w hw x hx
      rcases List.mem_append.mp hw with hw | hw
      · exact hm w hw x (by simp [hx])
      · rw [List.mem_singleton.mp hw]; exact hp.1 x hx

theorem takeUser_groups : ∀ (gs m : List (Int × List (NoteData P))), gs.Pairwise (fun v w => userVoiceOf v.2 < userVoiceOf w.2) →
    (∀ w ∈ m, ∀ g ∈ gs, w.1 < userVoiceOf g.2 - 1) →
    gs.foldl (fun m v => assign (userVoiceOf v.2 - 1) v.2 m) m = m ++ gs.map (fun g => (userVoiceOf g.2 - 1, g.2)) := by
  intro gs
  induction gs with
  | nil => intro m _ _; simp
  | cons g gs ih =>
    intro m hp hm
    rw [List.pairwise_cons] at hp
    rw [List.foldl_cons, assign_last (fun w hw => hm w hw g (by simp)), ih _ hp.2]
    · simp
    · intro w hw x hx
      rcases List.mem_append.mp hw with hw | hw
      · exact hm w hw x (by simp [hx])
      · rw [List.mem_singleton.mp hw]
        have := hp.1 x hx
        simp only; omega

theorem asRead_number (staff voice : Int) : ∀ (ns : List (NoteData P)) (t vi : Int) (b : Bool), ∀ r ∈ asRead staff voice t vi b ns, r.note.userVoice = voice := by
  intro ns
  induction ns with
  | nil => intro t vi b r h; simp [asRead] at h
  | cons n rest ih =>
    intro t vi b r h
    simp only [asRead, List.mem_cons] at h
    rcases h with rfl | h
    · rfl
    · exact ih _ _ _ r h

theorem voicesRead_number (staff : Int) : ∀ (vs : List (Int × List (NoteData P))) (acc : Int × Int), ∀ r ∈ voicesRead staff acc vs, ∃ v ∈ vs, r.note.userVoice = v.1 + 1 := by
  intro vs
  induction vs with
  | nil => intro acc r h; simp [voicesRead] at h
  | cons v vs ih =>
    intro acc r h
    simp only [voicesRead, List.mem_append] at h
    rcases h with h | h
    · exact ⟨v, by simp, asRead_number _ _ _ _ _ _ r h⟩
    · obtain ⟨w, hw, e⟩ := ih _ r h
      exact ⟨w, by simp [hw], e⟩

theorem voicesRead_numbers (staff : Int) : ∀ (vs : List (Int × List (NoteData P))) (acc : Int × Int), vs.Pairwise (fun a b => a.1 < b.1) →
    (voicesRead staff acc vs).Pairwise (fun r r' => r.note.userVoice ≤ r'.note.userVoice) := by
  intro vs
  induction vs with
  | nil => intro acc _; simp [voicesRead]
  | cons v vs ih =>
    intro acc h
    rw [List.pairwise_cons] at h
    rw [voicesRead, List.pairwise_append]
    refine ⟨?_, ih _ h.2, ?_⟩
    · apply List.pairwise_of_forall_mem_list
      intro r hr r' hr'
      rw [asRead_number _ _ _ _ _ _ r hr, asRead_number _ _ _ _ _ _ r' hr']
    · intro r hr r' hr'
      obtain ⟨w, hw, e⟩ := voicesRead_number _ _ _ r' hr'
      rw [asRead_number _ _ _ _ _ _ r hr, e]
      have := h.1 w hw
      omega

/-- **The voices that are read** are such as survive, whatever the voices that have been written (`VoiceKept`, numbers in order). -/
theorem voices_settle (staff : Int) (acc : Int × Int) (vs : List (Int × List (NoteData P))) (hv : ∀ v ∈ vs, VoiceKept v.2) (h0 : ∀ v ∈ vs, 0 ≤ v.1)
    (ha : vs.Pairwise (fun a b => a.1 < b.1)) (c : List (Timed P)) (k : List (KeyData P)) (d : List (DirectionData P)) :
    let ws := consolidate ((voicesRead staff acc vs).foldl (fun m r => insertNote r.voice r.note m) [])
    StaffReadable { clefs := c, keys := k, voices := ws, directions := d } ∧ (∀ w ∈ ws, VoiceKept w.2) ∧ NoEmpty ws := by
  obtain ⟨gs, g1, g2, g3, g4⟩ := groups_of_trail staff (voicesRead staff acc vs) none (voicesRead_staff staff vs acc) (voicesRead_trail staff vs acc none hv (by simp))
  have hasc : gs.Pairwise (fun v w => v.1 < w.1) := by
    have hc : gs.IsChain (fun v w => v.1 < w.1) := g2.overlap.imp (fun _ _ h => h.1)
    haveI : IsTrans (Int × List (NoteData P)) (fun v w => v.1 < w.1) := ⟨fun _ _ _ h h' => lt_trans h h'⟩
    exact List.isChain_iff_pairwise.mp hc
  have hnum : gs.Pairwise (fun v w => userVoiceOf v.2 ≤ userVoiceOf w.2) := by
    have h1 := voicesRead_numbers staff vs acc ha
    rw [g1] at h1
    unfold ungroup at h1
    rw [List.pairwise_flatMap] at h1
    refine List.Pairwise.imp_of_mem ?_ h1.2
    intro v w hv hw h
    have n1 := g2.noEmpty v hv
    have n2 := g2.noEmpty w hw
    obtain ⟨a, at', e1⟩ := List.exists_cons_of_ne_nil n1
    obtain ⟨b, bt, e2⟩ := List.exists_cons_of_ne_nil n2
    rw [e1, e2] at h ⊢
    exact h (ReadNote.mk staff v.1 a) (by simp) (ReadNote.mk staff w.1 b) (by simp)
  have hpos : ∀ g ∈ gs, 1 ≤ userVoiceOf g.2 := by
    intro g hg
    obtain ⟨a, at', e1⟩ := List.exists_cons_of_ne_nil (g2.noEmpty g hg)
    have : ReadNote.mk staff g.1 a ∈ voicesRead staff acc vs := by
      rw [g1]
      unfold ungroup
      refine List.mem_flatMap.mpr ⟨g, hg, ?_⟩
      rw [e1]; simp
    obtain ⟨w, hw, e⟩ := voicesRead_number _ _ _ _ this
    rw [e1]
    show 1 ≤ a.userVoice
    have := h0 w hw
    simp only at e
    omega
  rw [g1, insert_groups staff gs [] g2.noEmpty hasc (by simp), List.nil_append]
  have key : (consolidate gs).map (·.2) = gs.map (·.2) ∧ Ascending (consolidate gs) ∧ ∀ w ∈ consolidate gs, 0 ≤ w.1 := by
    unfold consolidate
    split
    · rename_i hc
      have hnd := ((allConsistent_iff gs []).mp hc).2
      have hlt : gs.Pairwise (fun v w => userVoiceOf v.2 < userVoiceOf w.2) := by
        rw [List.nodup_iff_pairwise_ne, List.pairwise_map] at hnd
        exact hnum.imp₂ (fun a b h1 h2 => lt_of_le_of_ne h1 h2) hnd
      have e : takeUserVoices gs = gs.map (fun g => (userVoiceOf g.2 - 1, g.2)) := by
        unfold takeUserVoices
        rw [takeUser_groups gs [] hlt (by simp), List.nil_append]
      rw [e]
      refine ⟨by simp, ?_, ?_⟩
      · unfold Ascending
        rw [List.pairwise_map]
        exact hlt.imp (fun h => by simp only; omega)
      · intro w hw
        obtain ⟨g, hg, rfl⟩ := List.mem_map.mp hw
        have := hpos g hg
        simp only; omega
    · obtain ⟨a, b, c⟩ := collapseFrom_spec gs 0
      exact ⟨a, c, b⟩
  obtain ⟨k1, k2, k3⟩ := key
  have hmem : ∀ w ∈ consolidate gs, ∃ g ∈ gs, g.2 = w.2 := by
    intro w hw
    have : w.2 ∈ (consolidate gs).map (·.2) := List.mem_map_of_mem hw
    rw [k1] at this
    obtain ⟨g, hg, e⟩ := List.mem_map.mp this
    exact ⟨g, hg, e⟩
  have hne : NoEmpty (consolidate gs) := by
    intro w hw
    obtain ⟨g, hg, e⟩ := hmem w hw
    rw [← e]; exact g2.noEmpty g hg
  have hchords : ∀ g ∈ gs, ChordsComplete none g.2 := by
    intro g hg
    cases gs with
    | nil => simp at hg
    | cons x t =>
      rcases List.mem_cons.mp hg with rfl | hg
      · simpa [sameVoice] using g3 _ rfl
      · exact g4 g hg
  refine ⟨⟨k3, k2, ?_, ?_, ?_⟩, ?_, hne⟩
  · intro w hw
    obtain ⟨g, hg, e⟩ := hmem w hw
    rw [← e]; exact g2.noOverlap g hg
  · intro w hw
    obtain ⟨g, hg, e⟩ := hmem w hw
    rw [← e]; exact hchords g hg
  · have hs : StaffData.sounding ({ clefs := c, keys := k, voices := consolidate gs, directions := d } : StaffData P) = consolidate gs := by
      unfold StaffData.sounding
      rw [List.filter_eq_self]
      intro w hw
      simpa using hne w hw
    rw [hs]
    have h1 : gs.IsChain (fun v w => voiceStart w.2 < voiceEnd v.2) := g2.overlap.imp (fun _ _ h => h.2)
    have h2 : (gs.map (·.2)).IsChain (fun v w => voiceStart w < voiceEnd v) := (List.isChain_map _).mpr h1
    rw [← k1] at h2
    exact (List.isChain_map _).mp h2
  · intro w hw
    obtain ⟨g, hg, e⟩ := hmem w hw
    rw [← e]
    exact ⟨g2.notes g hg, g2.pairs g hg⟩

end Mx.Measure
