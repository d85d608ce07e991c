import Verif.Proofs.PassThrough

/-! Files that are loaded and saved again and again. -/
namespace Mx.Measure
open _root_.Spec Mx.Props

variable {P : Type}

/-- Every note of a chord has a length. -/
def LongChords (m : MeasureData P) : Prop := ∀ s ∈ m.staves, ∀ v ∈ s.voices, ∀ n ∈ v.2, n.isChord = true → 0 < n.ticks

/-- A note that is read after another one, if the chords are plain and long. -/
def Later (a b : ReadNote P) : Prop :=
  0 ≤ b.note.ticks ∧ (a.voice < b.voice ∨ (a.voice = b.voice ∧
    (a.note.tick + a.note.ticks ≤ b.note.tick ∨ (b.note.tick = a.note.tick ∧ b.note.isChord = true ∧ b.note.ticks = a.note.ticks))))

instance : Trans (Later (P := P)) Later Later where
  trans := by
    rintro a b c ⟨h1, h2⟩ ⟨h3, h4⟩
    refine ⟨h3, ?_⟩
    rcases h2 with h2 | ⟨h2, h5⟩ <;> rcases h4 with h4 | ⟨h4, h6⟩
    · exact .inl (by omega)
    · exact .inl (by omega)
    · exact .inl (by omega)
    · refine .inr ⟨by omega, ?_⟩
      rcases h5 with h5 | ⟨h5, h7, h8⟩ <;> rcases h6 with h6 | ⟨h6, h9, h10⟩
      · exact .inl (by omega)
      · exact .inl (by omega)
      · exact .inl (by omega)
      · exact .inr ⟨by omega, h9, by omega⟩

theorem noteOk_length {n : NoteData P} (h : NoteOk n) : 0 ≤ n.ticks := by
  by_cases hk : n.kind = .grace
  · rw [h.2.1 hk]
  · exact le_of_lt (h.2.2 hk)

theorem asRead_later (staff voice : Int) (L : List (ReadNote P)) : ∀ (ns : List (NoteData P)) (tick vi : Int) (inChord : Bool) (prev : Option (ReadNote P)),
    VoiceOk ns →
    (∀ p, prev = some p → p.voice = vi ∧ 0 ≤ p.note.ticks ∧ (inChord = false → tick = p.note.tick + p.note.ticks) ∧
      (inChord = true → ∀ n ∈ ns.head?, n.tick = p.note.tick ∧ n.tick = tick ∧ n.ticks = p.note.ticks)) →
    (inChord = true → prev ≠ none ∧ ns ≠ []) →
    (∀ prev', (∀ p, prev' = some p → p.voice = voiceAfter tick vi ns ∧ 0 ≤ p.note.ticks ∧ tickAfter tick ns = p.note.tick + p.note.ticks) →
      (prev'.toList ++ L).IsChain Later) →
    (prev.toList ++ (asRead staff voice tick vi inChord ns ++ L)).IsChain Later := by
  intro ns
  induction ns with
  | nil =>
    intro tick vi inChord prev _ hw hc hL
    have hf : inChord = false := by
      cases inChord with
      | false => rfl
      | true => exact absurd rfl (hc rfl).2
    refine hL prev ?_
    intro p hp
    obtain ⟨h1, h2, h3, _⟩ := hw p hp
    exact ⟨h1, h2, h3 hf⟩
  | cons n rest ih =>
    intro tick vi inChord prev hv hw hc hL
    have hn := hv.1 n (by simp)
    have hlen := noteOk_length hn
    have hv' : VoiceOk rest := ⟨fun x hx => hv.1 x (by simp [hx]), by
      cases rest with
      | nil => exact List.IsChain.nil
      | cons b t => exact (List.isChain_cons_cons.mp hv.2).2⟩
    simp only [asRead, List.cons_append]
    generalize hg : chordGoesOn n rest.head? = goesOn
    have hrest := ih (if goesOn = true then n.tick else n.tick + n.ticks) (if n.tick < tick then vi + 1 else vi) goesOn
      (some { staff := staff, voice := if n.tick < tick then vi + 1 else vi, note := { n with isChord := inChord || goesOn, userVoice := voice } }) hv' (by
        intro p hp
        simp only [Option.some.injEq] at hp
        subst hp
        refine ⟨rfl, hlen, fun e => by rw [e]; rfl, ?_⟩
        intro e q hq
        cases rest with
        | nil => cases hq
        | cons b t =>
          simp only [List.head?_cons, Option.mem_some_iff] at hq
          subst hq
          rw [e] at hg
          obtain ⟨c1, c2, c3⟩ := (continues_iff n b).mp hg
          have hp := (List.isChain_cons_cons.mp hv.2).1 c1 c3
          rw [if_pos c2] at hp
          exact ⟨c3, by rw [e]; exact c3, hp⟩) (by
        intro e
        refine ⟨by simp, ?_⟩
        intro e'
        rw [e', e] at hg
        simp [chordGoesOn] at hg) (by
        intro prev' h
        refine hL prev' ?_
        simp only [voiceAfter, tickAfter, hg]
        exact h)
    simp only [Option.toList_some, List.singleton_append] at hrest
    cases prev with
    | none => simpa using hrest
    | some p =>
      simp only [Option.toList_some, List.singleton_append]
      refine List.isChain_cons_cons.mpr ⟨?_, hrest⟩
      obtain ⟨w1, w2, w3, w4⟩ := hw p rfl
      refine ⟨hlen, ?_⟩
      simp only
      cases hi : inChord with
      | true =>
        obtain ⟨e1, e2, e3⟩ := w4 hi n rfl
        rw [if_neg (by omega)]
        exact .inr ⟨w1, .inr ⟨e1, by simp, e3⟩⟩
      | false =>
        have := w3 hi
        by_cases hlt : n.tick < tick
        · rw [if_pos hlt]
          exact .inl (by omega)
        · rw [if_neg hlt]
          exact .inr ⟨w1, .inl (by omega)⟩

theorem voicesRead_later (staff : Int) : ∀ (vs : List (Int × List (NoteData P))) (acc : Int × Int) (prev : Option (ReadNote P)), (∀ v ∈ vs, VoiceOk v.2) →
    (∀ p, prev = some p → p.voice = acc.2 ∧ 0 ≤ p.note.ticks ∧ acc.1 = p.note.tick + p.note.ticks) → (prev.toList ++ voicesRead staff acc vs).IsChain Later := by
  intro vs
  induction vs with
  | nil => intro acc prev _ _; cases prev <;> simp [voicesRead]
  | cons v vs ih =>
    intro acc prev hv hp
    simp only [voicesRead]
    refine asRead_later staff (v.1 + 1) _ v.2 acc.1 acc.2 false prev (hv v (by simp)) ?_ (fun e => by cases e) ?_
    · intro p e
      obtain ⟨h1, h2, h3⟩ := hp p e
      exact ⟨h1, h2, fun _ => h3, fun e => by cases e⟩
    · intro prev' h
      exact ih _ prev' (fun w hw => hv w (by simp [hw])) h

theorem asRead_notes (staff voice : Int) : ∀ (ns : List (NoteData P)) (tick vi : Int) (b : Bool), (b = true → ∀ n ∈ ns.head?, n.isChord = true) →
    ∀ r ∈ asRead staff voice tick vi b ns, ∃ n ∈ ns, r.note.tick = n.tick ∧ r.note.ticks = n.ticks ∧ r.note.kind = n.kind ∧ (r.note.isChord = true → n.isChord = true) := by
  intro ns
  induction ns with
  | nil => intro _ _ _ _ r hr; cases hr
  | cons n rest ih =>
    intro tick vi b hb r hr
    simp only [asRead] at hr
    rcases List.mem_cons.mp hr with rfl | hr
    · refine ⟨n, by simp, rfl, rfl, rfl, ?_⟩
      intro e
      simp only at e
      cases hbb : b with
      | true => exact hb hbb n rfl
      | false =>
        rw [hbb] at e
        simp only [Bool.false_or] at e
        cases rest with
        | nil => simp [chordGoesOn] at e
        | cons q t => exact ((continues_iff n q).mp e).1
    · obtain ⟨m, hm, h⟩ := ih _ _ _ (by
        intro e q hq
        cases rest with
        | nil => cases hq
        | cons x t =>
          simp only [List.head?_cons, Option.mem_some_iff] at hq
          subst hq
          exact ((continues_iff n x).mp e).2.1) r hr
      exact ⟨m, by simp [hm], h⟩

theorem voicesRead_notes (staff : Int) : ∀ (vs : List (Int × List (NoteData P))) (acc : Int × Int), ∀ r ∈ voicesRead staff acc vs,
    ∃ v ∈ vs, ∃ n ∈ v.2, r.note.tick = n.tick ∧ r.note.ticks = n.ticks ∧ r.note.kind = n.kind ∧ (r.note.isChord = true → n.isChord = true) := by
  intro vs
  induction vs with
  | nil => intro _ r hr; cases hr
  | cons v vs ih =>
    intro acc r hr
    simp only [voicesRead] at hr
    rcases List.mem_append.mp hr with hr | hr
    · obtain ⟨n, hn, h⟩ := asRead_notes staff (v.1 + 1) v.2 acc.1 acc.2 false (fun e => by cases e) r hr
      exact ⟨v, by simp, n, hn, h⟩
    · obtain ⟨w, hw, h⟩ := ih _ r hr
      exact ⟨w, by simp [hw], h⟩

theorem asRead_heard (G : Int) (staff voice : Int) : ∀ (ns : List (NoteData P)) (tick vi : Int) (b : Bool),
    (asRead staff voice tick vi b ns).map (ReadNote.heard G) = ns.map (fun n => ((n.tick : ℚ) / G, (n.ticks : ℚ) / G, staff, n.content)) := by
  intro ns
  induction ns with
  | nil => intro _ _ _; rfl
  | cons n rest ih =>
    intro tick vi b
    simp only [asRead, List.map_cons]
    rw [ih]
    rfl

theorem voicesRead_heard (G : Int) (N : Nat) (i : Nat) (hi : i < N) : ∀ (vs : List (Int × List (NoteData P))) (acc : Int × Int),
    (voicesRead (i : Int) acc vs).map (ReadNote.heard G) = (vs.flatMap (fun v => v.2.map (expectedNote G N i v.1))).map Placed.heard := by
  intro vs
  induction vs with
  | nil => intro _; rfl
  | cons v vs ih =>
    intro acc
    simp only [voicesRead, List.map_append, List.flatMap_cons]
    rw [ih, asRead_heard]
    congr 1
    rw [List.map_map]
    refine List.map_congr_left (fun n _ => ?_)
    simp only [Function.comp_apply, Placed.heard, expectedNote, Placed.staffIndex, Prod.mk.injEq, true_and, and_true]
    split
    · simp
    · simp; omega

theorem stavesRead_heard (G : Int) (N : Nat) : ∀ (ss : List (StaffData P)) (i : Nat) (acc : Int × Int), i + ss.length ≤ N →
    (stavesRead (i : Int) acc ss).map (ReadNote.heard G) = (expectedFrom G N i ss).map Placed.heard := by
  intro ss
  induction ss with
  | nil => intro _ _ _; rfl
  | cons s ss ih =>
    intro i acc h
    simp only [List.length_cons] at h
    simp only [stavesRead, expectedFrom, List.map_append]
    rw [voicesRead_heard G N i (by omega)]
    have := ih (i + 1) (voicesEnd acc s.voices) (by omega)
    rw [Nat.cast_add i 1, Nat.cast_one] at this
    rw [this]

theorem kept_of_ok {m : MeasureData P} (h : MeasureOk m) : MeasureKept m := by
  intro s hs v hv
  obtain ⟨h1, h2⟩ := h s hs v hv
  refine ⟨fun n hn => ⟨(h1 n hn).1, (h1 n hn).2.1, noteOk_length (h1 n hn)⟩, h2.imp ?_⟩
  intro a b hab c1 c2 c3
  have := hab c1 c2
  rw [c3] at this
  simpa using this

/-- A measure that is written and read once more. -/
theorem again {env : WEnv} {d : Int} {N : Nat} {m m' : MeasureData P} (h : Suits env d m) (hN : m.staves.length = N) (hm : MeasureOk m) (hk : ∀ s ∈ m.staves, VoicesNumbered s) (hl : LongChords m)
    (hr : writeThenRead env d m = some m') :
    MeasureOk m' ∧ LongChords m' ∧ (∀ s ∈ m'.staves, VoicesNumbered s) ∧ m'.staves.length = N ∧ SoundsLike (expectedNotes env.ticksPerQuarter N m') (expectedNotes env.ticksPerQuarter N m) := by
  obtain ⟨r, e, h1, h2, _⟩ := read_measure env m d h.scale h.known h.positive (le_of_eq h.staves) (kept_of_ok hm) (fun s hs => (hk s hs).1)
  have hm' : m' = measureOf ⟨env.numStaves, env.ticksPerQuarter⟩ r := by
    unfold writeThenRead readMeasure at hr
    rw [h1] at hr
    exact (Option.some.inj hr).symm
  have hst := h.staves
  subst hm'
  have hnotes : ∀ x ∈ r.notes, 0 ≤ x.staff ∧ x.staff < env.numStaves := by
    intro x hx
    rw [h2] at hx
    have hx' : ∀ (ss : List (StaffData P)) (i : Int) (acc : Int × Int), x ∈ stavesRead i acc ss → i ≤ x.staff ∧ x.staff < i + ss.length := by
      intro ss
      induction ss with
      | nil => intro i acc h; cases h
      | cons s ss ih =>
        intro i acc h
        simp only [stavesRead] at h
        rcases List.mem_append.mp h with h | h
        · have := voicesRead_staff _ _ _ x h
          simp only [List.length_cons]
          push_cast
          omega
        · have := ih _ _ h
          simp only [List.length_cons]
          push_cast
          omega
    have := hx' _ _ _ hx
    omega
  have hlater : ∀ (i : Nat) (s : StaffData P), m.staves[i]? = some s → (r.notes.filter (fun x => x.staff = (i : Int))).Pairwise Later ∧
      ∀ x ∈ r.notes.filter (fun x => x.staff = (i : Int)), NoteOk x.note ∧ (x.note.isChord = true → 0 < x.note.ticks) := by
    intro i s hs
    have hmem := List.mem_of_getElem? hs
    obtain ⟨acc, ha⟩ := filter_stavesRead m.staves 0 (0, 0) i s hs
    simp only [zero_add] at ha
    rw [h2, ha]
    refine ⟨?_, ?_⟩
    · exact List.isChain_iff_pairwise.mp (voicesRead_later (i : Int) s.voices acc none (hm s hmem) (fun p e => by cases e))
    · intro x hx
      obtain ⟨v, hv, n, hn, e1, e2, e3, e4⟩ := voicesRead_notes _ _ _ x hx
      have hok := (hm s hmem v hv).1 n hn
      refine ⟨⟨by rw [e1]; exact hok.1, by rw [e2, e3]; exact hok.2.1, by rw [e2, e3]; exact hok.2.2⟩, ?_⟩
      intro hc
      rw [e2]
      exact hl s hmem v hv n hn (e4 hc)
  have hvoice : ∀ s ∈ (measureOf ⟨env.numStaves, env.ticksPerQuarter⟩ r).staves, ∀ v ∈ s.voices, ∃ (i : Nat) (k : Int), i < m.staves.length ∧ v.2 = line i k r.notes := by
    intro s hs v hv
    obtain ⟨i, hi, rfl⟩ := List.mem_map.mp hs
    obtain ⟨w, hw, e⟩ := (consolidate_spec _).2.2 v hv
    obtain ⟨a1, a2, _, a4⟩ := voicesOf_spec (i : Int) r.notes
    have hline : w.2 = line i w.1 r.notes := by rw [← notesAt_of_mem a1 hw, a4]; rfl
    refine ⟨i, w.1, ?_, by rw [e, hline]⟩
    have := List.mem_range.mp hi
    simp only at this
    omega
  refine ⟨?_, ?_, ?_, ?_, ?_⟩
  · intro s hs v hv
    obtain ⟨i, k, hi, e⟩ := hvoice s hs v hv
    obtain ⟨l1, l2⟩ := hlater i _ (List.getElem?_eq_getElem hi)
    rw [e]
    unfold line
    refine ⟨?_, ?_⟩
    · intro n hn
      obtain ⟨x, hx, rfl⟩ := List.mem_map.mp hn
      exact (l2 x (List.mem_filter.mp hx).1).1
    · apply List.Pairwise.isChain
      refine List.pairwise_map.mpr ?_
      refine (l1.filter _).imp_of_mem ?_
      intro a b ha hb hab c1 c2
      have hla := (l2 a (List.mem_filter.mp ha).1).2 c1
      have hva := of_decide_eq_true (List.mem_filter.mp ha).2
      have hvb := of_decide_eq_true (List.mem_filter.mp hb).2
      rcases hab.2 with h | ⟨_, h | ⟨_, h4, h5⟩⟩
      · omega
      · omega
      · rw [if_pos h4]; exact h5
  · intro s hs v hv n hn
    obtain ⟨i, k, hi, e⟩ := hvoice s hs v hv
    obtain ⟨l1, l2⟩ := hlater i _ (List.getElem?_eq_getElem hi)
    rw [e] at hn
    obtain ⟨x, hx, rfl⟩ := List.mem_map.mp hn
    exact (l2 x (List.mem_filter.mp hx).1).2
  · intro s hs
    obtain ⟨i, _, rfl⟩ := List.mem_map.mp hs
    exact consolidate_numbered _ (voicesOf_spec (i : Int) r.notes).2.1
  · simp only [measureOf, List.length_map, List.length_range]
    omega
  · have h4 := expected_read (env := ⟨env.numStaves, env.ticksPerQuarter⟩) (G := env.ticksPerQuarter) (N := N) (by simp only; omega) hnotes
    rw [h2, show (0 : Int) = ((0 : Nat) : Int) from rfl, stavesRead_heard env.ticksPerQuarter N m.staves 0 _ (by omega)] at h4
    exact h4

/-! ### reading files without chords of grace notes -/

theorem readElems_noGraceChords {env : REnv} : ∀ (es : List (Elem P)) (st st' : RSt P), NoGraceChords es → (∀ r ∈ st.notes, r.note.kind = .grace → r.note.isChord = false) →
    readElems env false es st = some st' → ∀ r ∈ st'.notes, r.note.kind = .grace → r.note.isChord = false := by
  intro es
  induction es with
  | nil =>
    intro st st' _ h he
    simp only [readElems, Option.some.injEq] at he
    subst he
    exact h
  | cons e es ih =>
    intro st st' hw h he
    rw [readElems] at he
    simp only [Option.bind_eq_bind, Option.bind_eq_some_iff] at he
    obtain ⟨s1, h1, h2⟩ := he
    cases e with
    | note n =>
      refine ih s1 st' hw.2 ?_ h2
      simp only [parseElem, parseNote, Option.bind_eq_bind, Option.bind_eq_some_iff] at h1
      obtain ⟨t, _, h1⟩ := h1
      rw [← nextIsChord_eq] at h1
      split at h1
      · cases h1
      · simp only [Option.some.injEq] at h1
        subst h1
        intro r hr hk
        rcases List.mem_append.mp hr with hr | hr
        · exact h r hr hk
        · rw [List.mem_singleton.mp hr] at hk ⊢
          simp only [parseNoteData] at hk ⊢
          obtain ⟨a, b⟩ := hw.1 hk
          rw [a, b]; rfl
    | backup d =>
      simp only [parseElem, parseBackup, Option.bind_eq_bind, Option.bind_eq_some_iff, Option.some.injEq] at h1
      obtain ⟨x, hx, rfl⟩ := h1
      exact ih _ st' hw (by exact h) h2
    | forward d =>
      simp only [parseElem, parseForward, Option.bind_eq_bind, Option.bind_eq_some_iff, Option.some.injEq] at h1
      obtain ⟨x, hx, rfl⟩ := h1
      exact ih _ st' hw (by exact h) h2
    | direction s o x =>
      simp only [parseElem, parseDirection] at h1
      split at h1
      · cases h1
      · simp only [Option.some.injEq] at h1
        subst h1
        exact ih _ st' hw (by exact h) h2
    | attributes a =>
      simp only [parseElem, parseProperties] at h1
      split at h1
      · cases h1
      · simp only [Option.some.injEq] at h1
        subst h1
        exact ih _ st' hw (by exact h) h2
    | barline l x =>
      simp only [parseElem, parseBarline, Option.some.injEq] at h1
      subst h1
      exact ih _ st' hw (by exact h) h2
    | other =>
      simp only [parseElem, Option.some.injEq] at h1
      subst h1
      exact ih _ st' hw (by exact h) h2

theorem readMeasures_noGraceChords {env : REnv} : ∀ {p : List (List (Elem P))} {d t : Int} {rs : List (RSt P)}, (∀ es ∈ p, NoGraceChords es) → readMeasures env d p = some (rs, t) →
    ∀ st ∈ rs, ∀ r ∈ st.notes, r.note.kind = .grace → r.note.isChord = false := by
  intro p
  induction p with
  | nil => intro d t rs _ h; simp only [readMeasures, Option.some.injEq, Prod.mk.injEq] at h; rw [← h.1]; simp
  | cons es p ih =>
    intro d t rs hw he
    simp only [readMeasures, Option.bind_eq_bind, Option.bind_eq_some_iff, Option.some.injEq, Prod.mk.injEq] at he
    obtain ⟨r, h1, ⟨rs', t1⟩, h2, rfl, _⟩ := he
    intro x hx
    rcases List.mem_cons.mp hx with rfl | hx
    · exact readElems_noGraceChords es _ _ (hw es (by simp)) (by simp [initRSt]) h1
    · exact ih (fun es' h' => hw es' (by simp [h'])) h2 x hx

/-- A measure of which every grace note stands alone, and the voices of which are numbered in order. -/
def FirmMeasure (m : MeasureData P) : Prop := LongChords m ∧ ∀ s ∈ m.staves, VoicesNumbered s

theorem getPartData_firm {G dv t : Int} {p : List (List (Child P))} {ms : List (MeasureData P)} (hp : ∀ m ∈ partElems p, NoGraceChords m) (h : getPartData G dv p = some (ms, t)) (hok : ∀ m ∈ ms, MeasureOk m) :
    ∀ m ∈ ms, FirmMeasure m := by
  unfold getPartData readPart at h
  simp only [Option.map_eq_some_iff, Prod.mk.injEq] at h
  obtain ⟨⟨rs, t'⟩, h1, rfl, _⟩ := h
  have hg := readMeasures_noGraceChords hp h1
  intro m hm
  have hmok := hok m hm
  obtain ⟨st, hst, rfl⟩ := List.mem_map.mp hm
  refine ⟨?_, ?_⟩
  · intro s hs v hv n hn hc
    have hnok := (hmok s hs v hv).1 n hn
    obtain ⟨i, _, rfl⟩ := List.mem_map.mp hs
    obtain ⟨w, hw, e⟩ := (consolidate_spec _).2.2 v hv
    obtain ⟨a1, a2, _, a4⟩ := voicesOf_spec (i : Int) st.notes
    have hline : w.2 = line i w.1 st.notes := by rw [← notesAt_of_mem a1 hw, a4]; rfl
    rw [e, hline] at hn
    obtain ⟨r, hr1, rfl, _, _⟩ := mem_line hn
    refine hnok.2.2 ?_
    intro hk
    rw [hg st hst r hr1 hk] at hc
    cases hc
  · intro s hs
    obtain ⟨i, _, rfl⟩ := List.mem_map.mp hs
    exact consolidate_numbered _ (voicesOf_spec (i : Int) st.notes).2.1

theorem getParts_firm {G : Int} : ∀ (ps : List (List (List (Child P)))) (dv : Int) (o : List (List (MeasureData P))), (∀ p ∈ ps, ∀ m ∈ partElems p, NoGraceChords m) → getParts G dv ps = some o →
    (∀ ms ∈ o, ∀ m ∈ ms, MeasureOk m) → ∀ ms ∈ o, ∀ m ∈ ms, FirmMeasure m := by
  intro ps
  induction ps with
  | nil => intro dv o _ h; simp only [getParts, Option.some.injEq] at h; subst h; simp
  | cons p ps ih =>
    intro dv o hp h hok
    simp only [getParts, Option.bind_eq_bind, Option.bind_eq_some_iff, Option.some.injEq] at h
    obtain ⟨⟨ms, t⟩, h1, o', h2, rfl⟩ := h
    intro x hx
    rcases List.mem_cons.mp hx with rfl | hx
    · exact getPartData_firm (hp p (by simp)) h1 (hok _ (by simp))
    · exact ih t o' (fun q hq => hp q (by simp [hq])) h2 (fun y hy => hok y (by simp [hy])) x hx

/-! ### saves and loads -/

/-- A loaded part that keeps its music for ever. -/
def Firm (G : Int) (p : List (List (Child P))) (ms : List (MeasureData P)) : Prop :=
  ∃ N : Nat, 1 ≤ N ∧ ms ≠ [] ∧ (∀ m ∈ ms, m.staves.length = N ∧ MeasureOk m ∧ FirmMeasure m) ∧
    List.Forall₂ (fun ps m => SoundsLike (expectedNotes G N m) ps) (partPlaced 1 (partElems p)) ms

theorem Firm.loaded {G : Int} {p : List (List (Child P))} {ms : List (MeasureData P)} (h : Firm G p ms) : Loaded G p ms := by
  obtain ⟨N, h1, h2, h3, h4⟩ := h
  exact ⟨N, h1, h2, fun m hm => ⟨(h3 m hm).1, (h3 m hm).2.1⟩, h4⟩

theorem Firm.good {G : Int} {p : List (List (Child P))} {ms : List (MeasureData P)} (h : Firm G p ms) : ∃ N, GoodPart N ms := by
  obtain ⟨N, h1, h2, h3, h4⟩ := h
  exact ⟨N, h2, h1, fun m hm => (h3 m hm).1, fun m hm => kept_of_ok (h3 m hm).2.1, fun m hm => (h3 m hm).2.2.2⟩

theorem partAgain_firm {G : Int} (hG : 0 < G) {p : List (List (Child P))} {q : PartData P} {o : List (MeasureData P)} (h : Firm G p (q.measures.map (·.2))) (ho : partAgain G q = some o) : Firm G p o := by
  obtain ⟨N, h1, h2, h3, h4⟩ := h
  obtain ⟨o', g1, g2⟩ := partAgain_steps (N := N) hG (p := q) ⟨h2, h1, fun m hm => (h3 m hm).1, fun m hm => kept_of_ok (h3 m hm).2.1, fun m hm => (h3 m hm).2.2.2⟩
  rw [ho] at g1
  cases g1
  have step : ∀ (x : Extras × MeasureData P) (m' : MeasureData P), x ∈ q.measures → (∃ b, writeThenRead (x.1.env N G b) G x.2 = some m') →
      MeasureOk m' ∧ LongChords m' ∧ (∀ s ∈ m'.staves, VoicesNumbered s) ∧ m'.staves.length = N ∧ SoundsLike (expectedNotes G N m') (expectedNotes G N x.2) := by
    rintro x m' hx ⟨b, hr⟩
    obtain ⟨k1, k2, k3, k4⟩ := h3 x.2 (List.mem_map_of_mem hx)
    exact again (suits_of hG h1 x.1 b k1) k1 k2 k4 k3 hr
  have hlen := g2.1
  refine ⟨N, h1, ?_, ?_, ?_⟩
  · intro e
    rw [e] at hlen
    exact h2 (by rw [List.length_eq_zero_iff.mp hlen]; rfl)
  · intro m' hm'
    obtain ⟨x, hx, hr⟩ := pairs_left g2 hm'
    obtain ⟨s1, s2, s3, s4, _⟩ := step x m' hx hr
    exact ⟨s4, s1, s2, s3⟩
  · rw [List.forall₂_map_right_iff] at h4
    refine List.forall₂_iff_get.mpr ⟨by rw [h4.length_eq, hlen], ?_⟩
    intro i hi hi'
    have hq : i < q.measures.length := by rw [hlen]; exact hi'
    have a := h4.get hi hq
    obtain ⟨_, _, _, _, s5⟩ := step _ _ (List.getElem_mem hq) (g2.2 i _ _ (List.getElem?_eq_getElem hq) (List.getElem?_eq_getElem hi'))
    exact s5.trans a

/-- A score that keeps the music of a file for ever. -/
structure FirmScore (file : List (Str × List (List (Child P)))) (s : Score P) : Prop where
  scale : 0 < s.ticksPerQuarter ∧ s.ticksPerQuarter ≤ INT_MAX
  nonempty : s.parts ≠ []
  parts : List.Forall₂ (fun p (q : PartData P) => Firm s.ticksPerQuarter p.2 (q.measures.map (·.2))) file s.parts
  ids : (s.parts.map (fun q => xsID q.uniqueId)).Nodup

theorem FirmScore.loaded {file : List (Str × List (List (Child P)))} {s : Score P} (h : FirmScore file s) : LoadedScore s := by
  refine ⟨h.scale, h.nonempty, ?_⟩
  intro q hq
  obtain ⟨i, hi⟩ := List.getElem?_of_mem hq
  have hlt := (List.getElem?_eq_some_iff.mp hi).1
  have := h.parts.get (i := i) (by rw [h.parts.length_eq]; exact hlt) hlt
  rw [show s.parts.get ⟨i, hlt⟩ = q from (List.getElem?_eq_some_iff.mp hi).2] at this
  exact this.good

theorem found_self {parts : List (PartData P)} (h : (parts.map (fun q => xsID q.uniqueId)).Nodup) {p : PartData P} (hp : p ∈ parts) : found parts p = p := by
  obtain ⟨h1, h2, _⟩ := found_spec hp
  exact List.inj_on_of_nodup_map h h1 hp h2

theorem savedAndLoaded_firm {file : List (Str × List (List (Child P)))} {s s' : Score P} (hs : FirmScore file s) (h : SavedAndLoaded s s') : FirmScore file s' := by
  obtain ⟨e1, e2⟩ := savedAndLoaded_parts hs.scale.1 hs.scale.2 hs.loaded.hasMeasure h
  refine ⟨by rw [e1]; exact hs.scale, ?_, ?_, ?_⟩
  · intro e
    have := e2.1
    rw [e] at this
    exact hs.nonempty (List.length_eq_zero_iff.mp this)
  · rw [e1]
    have hp := hs.parts
    refine List.forall₂_iff_get.mpr ⟨by rw [hp.length_eq, e2.1], ?_⟩
    intro i hi hi'
    have hq : i < s.parts.length := by rw [e2.1]; exact hi'
    have a := hp.get hi hq
    have b := (e2.2 i _ _ (List.getElem?_eq_getElem hq) (List.getElem?_eq_getElem hi')).2
    rw [found_self hs.ids (List.getElem_mem hq)] at b
    exact partAgain_firm hs.scale.1 a b
  · have : s'.parts.map (fun q => xsID q.uniqueId) = s.parts.map (fun q => xsID q.uniqueId) := by
      refine pairs_map (f := fun q : PartData P => xsID q.uniqueId) (g := fun q : PartData P => xsID q.uniqueId) ⟨e2.1, ?_⟩
      intro i a b ha hb
      rw [(e2.2 i a b ha hb).1, id_idem]
    rw [this]
    exact hs.ids

theorem firm_after {file : List (Str × List (List (Child P)))} {k : Nat} {s s' : Score P} (h : AfterSaves k s s') (hs : FirmScore file s) : FirmScore file s' := by
  induction h with
  | none => exact hs
  | more _ h ih => exact savedAndLoaded_firm (ih hs) h

end Mx.Measure
