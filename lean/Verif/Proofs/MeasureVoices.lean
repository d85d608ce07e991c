import Verif.Model.MeasureReader
import Mathlib.Data.List.Perm.Basic

/-! Lemmas about the maps from voice number to notes built by the reader. -/
namespace Mx.Measure

variable {P : Type}

/-- All notes of a staff, voice by voice. -/
def allNotes (vs : List (Int × List (NoteData P))) : List (NoteData P) := vs.flatMap (·.2)

/-- The notes of the voice with the given key. -/
def notesAt (k : Int) (vs : List (Int × List (NoteData P))) : List (NoteData P) := (vs.filter (fun v => v.1 = k)).flatMap (·.2)

/-- Keys strictly ascending, as in a `std::map`. -/
def Ascending (vs : List (Int × List (NoteData P))) : Prop := vs.Pairwise (fun a b => a.1 < b.1)

/-- No voice is empty. -/
def NoEmpty (vs : List (Int × List (NoteData P))) : Prop := ∀ v ∈ vs, v.2 ≠ []

theorem notesAt_cons (k : Int) (v : Int × List (NoteData P)) (vs) :
    notesAt k (v :: vs) = (if v.1 = k then v.2 else []) ++ notesAt k vs := by
  unfold notesAt
  by_cases h : v.1 = k <;> simp [h]

theorem notesAt_nil_of_lt {k : Int} {vs : List (Int × List (NoteData P))} (h : ∀ v ∈ vs, k < v.1) : notesAt k vs = [] := by
  induction vs with
  | nil => rfl
  | cons v vs ih =>
    have := h v (by simp)
    rw [notesAt_cons, if_neg (by omega), ih (fun w hw => h w (by simp [hw]))]; rfl

theorem insertNote_keys {key : Int} {n : NoteData P} : ∀ {vs : List (Int × List (NoteData P))} {v}, v ∈ insertNote key n vs →
    v.1 = key ∨ v ∈ vs := by
  intro vs
  induction vs with
  | nil => intro v h; simp [insertNote] at h; exact .inl (by rw [h])
  | cons a vs ih =>
    intro v h
    obtain ⟨k, ns⟩ := a
    unfold insertNote at h
    split at h
    · simp at h
      rcases h with h | h | h
      · exact .inl (by rw [h])
      · exact .inr (by simp [h])
      · exact .inr (by simp [h])
    · split at h
      · rename_i h2
        simp at h
        rcases h with h | h
        · exact .inl (by rw [h]; exact h2.symm)
        · exact .inr (by simp [h])
      · simp at h
        rcases h with h | h
        · exact .inr (by simp [h])
        · rcases ih h with h | h
          · exact .inl h
          · exact .inr (by simp [h])

theorem insertNote_ascending {key : Int} {n : NoteData P} {vs : List (Int × List (NoteData P))} (h : Ascending vs) :
    Ascending (insertNote key n vs) := by
  induction vs with
  | nil => simp [insertNote, Ascending]
  | cons a vs ih =>
    obtain ⟨k, ns⟩ := a
    have hh := List.pairwise_cons.mp h
    unfold insertNote
    split
    · rename_i hlt
      refine List.pairwise_cons.mpr ⟨?_, h⟩
      intro b hb
      simp at hb
      rcases hb with rfl | hb
      · exact hlt
      · have := hh.1 b hb; simp at this ⊢; omega
    · split
      · exact List.pairwise_cons.mpr ⟨hh.1, hh.2⟩
      · rename_i h1 h2
        refine List.pairwise_cons.mpr ⟨?_, ih hh.2⟩
        intro b hb
        rcases insertNote_keys hb with hb | hb
        · simp; omega
        · exact hh.1 b hb

theorem insertNote_noEmpty {key : Int} {n : NoteData P} {vs : List (Int × List (NoteData P))} (h : NoEmpty vs) :
    NoEmpty (insertNote key n vs) := by
  induction vs with
  | nil => intro v hv; simp [insertNote] at hv; simp [hv]
  | cons a vs ih =>
    obtain ⟨k, ns⟩ := a
    have ih := ih (fun v hv => h v (by simp [hv]))
    unfold insertNote
    intro v hv
    split at hv
    · simp at hv
      rcases hv with rfl | rfl | hv
      · simp
      · exact h _ (by simp)
      · exact h _ (by simp [hv])
    · split at hv
      · simp at hv
        rcases hv with rfl | hv
        · simp
        · exact h _ (by simp [hv])
      · simp at hv
        rcases hv with rfl | hv
        · exact h _ (by simp)
        · exact ih v hv

theorem notesAt_insertNote {key k : Int} {n : NoteData P} {vs : List (Int × List (NoteData P))} (h : Ascending vs) :
    notesAt k (insertNote key n vs) = notesAt k vs ++ (if key = k then [n] else []) := by
  induction vs with
  | nil => by_cases hk : key = k <;> simp [insertNote, notesAt, hk]
  | cons a vs ih =>
    obtain ⟨k', ns⟩ := a
    have hh := List.pairwise_cons.mp h
    unfold insertNote
    split
    · rename_i hlt
      rw [notesAt_cons]
      by_cases hk : key = k
      · rw [notesAt_nil_of_lt (k := k) (vs := (k', ns) :: vs)]
        · simp [hk]
        · intro v hv
          simp at hv
          rcases hv with rfl | hv
          · simp; omega
          · have := hh.1 v hv; simp at this; omega
      · simp [hk]
    · split
      · rename_i h2
        subst h2
        rw [notesAt_cons, notesAt_cons]
        by_cases hk : key = k
        · subst hk
          rw [notesAt_nil_of_lt hh.1]; simp
        · simp [hk]
      · rw [notesAt_cons, notesAt_cons, ih hh.2]; simp

theorem allNotes_insertNote (key : Int) (n : NoteData P) (vs : List (Int × List (NoteData P))) :
    (allNotes (insertNote key n vs)).Perm (n :: allNotes vs) := by
  induction vs with
  | nil => simp [insertNote, allNotes]
  | cons a vs ih =>
    obtain ⟨k', ns⟩ := a
    unfold insertNote
    split
    · simp [allNotes]
    · split
      · simp only [allNotes, List.flatMap_cons, List.append_assoc]
        exact (List.perm_middle (l₁ := ns) (a := n) (l₂ := vs.flatMap (·.2)))
      · simp only [allNotes, List.flatMap_cons] at ih ⊢
        exact (List.Perm.append_left ns ih).trans List.perm_middle

/-- The three facts about `voicesOf`. -/
theorem voicesOf_aux (l : List (ReadNote P)) : ∀ m : List (Int × List (NoteData P)), Ascending m → NoEmpty m →
    let m' := l.foldl (fun m r => insertNote r.voice r.note m) m
    Ascending m' ∧ NoEmpty m' ∧ (allNotes m').Perm (allNotes m ++ l.map (·.note)) ∧
    ∀ k, notesAt k m' = notesAt k m ++ (l.filter (fun r => r.voice = k)).map (·.note) := by
  induction l with
  | nil => intro m h1 h2; exact ⟨h1, h2, by simp, by simp⟩
  | cons r l ih =>
    intro m h1 h2
    obtain ⟨a, b, c, d⟩ := ih (insertNote r.voice r.note m) (insertNote_ascending h1) (insertNote_noEmpty h2)
    refine ⟨a, b, ?_, ?_⟩
    · simp only [List.foldl_cons]
      refine c.trans ?_
      refine (List.Perm.append_right _ (allNotes_insertNote r.voice r.note m)).trans ?_
      simp only [List.cons_append, List.map_cons]
      exact List.perm_middle.symm
    · intro k
      simp only [List.foldl_cons]
      rw [d k, notesAt_insertNote h1]
      by_cases h : r.voice = k <;> simp [h]

theorem voicesOf_spec (staff : Int) (notes : List (ReadNote P)) :
    Ascending (voicesOf staff notes) ∧ NoEmpty (voicesOf staff notes) ∧
    (allNotes (voicesOf staff notes)).Perm ((notes.filter (fun r => r.staff = staff)).map (·.note)) ∧
    ∀ k, notesAt k (voicesOf staff notes) = ((notes.filter (fun r => r.staff = staff)).filter (fun r => r.voice = k)).map (·.note) := by
  obtain ⟨a, b, c, d⟩ := voicesOf_aux (notes.filter (fun r => r.staff = staff)) [] List.Pairwise.nil (by simp [NoEmpty])
  refine ⟨a, b, ?_, ?_⟩
  · simpa [allNotes, voicesOf] using c
  · simpa [notesAt, voicesOf] using d

/-! ### assign -/

theorem assign_keys {key : Int} {n : List (NoteData P)} : ∀ {vs : List (Int × List (NoteData P))} {v}, v ∈ assign key n vs →
    v = (key, n) ∨ v ∈ vs := by
  intro vs
  induction vs with
  | nil => intro v h; simp [assign] at h; exact .inl h
  | cons a vs ih =>
    intro v h
    obtain ⟨k, ns⟩ := a
    unfold assign at h
    split at h
    · simp at h
      rcases h with h | h | h
      · exact .inl h
      · exact .inr (by simp [h])
      · exact .inr (by simp [h])
    · split at h
      · rename_i h2
        simp at h
        rcases h with h | h
        · exact .inl (by rw [h, h2])
        · exact .inr (by simp [h])
      · simp at h
        rcases h with h | h
        · exact .inr (by simp [h])
        · rcases ih h with h | h
          · exact .inl h
          · exact .inr (by simp [h])

theorem assign_ascending {key : Int} {n : List (NoteData P)} {vs : List (Int × List (NoteData P))} (h : Ascending vs) :
    Ascending (assign key n vs) := by
  induction vs with
  | nil => simp [assign, Ascending]
  | cons a vs ih =>
    obtain ⟨k, ns⟩ := a
    have hh := List.pairwise_cons.mp h
    unfold assign
    split
    · rename_i hlt
      refine List.pairwise_cons.mpr ⟨?_, h⟩
      intro b hb
      simp at hb
      rcases hb with rfl | hb
      · exact hlt
      · have := hh.1 b hb; simp at this ⊢; omega
    · split
      · exact List.pairwise_cons.mpr ⟨hh.1, hh.2⟩
      · rename_i h1 h2
        refine List.pairwise_cons.mpr ⟨?_, ih hh.2⟩
        intro b hb
        rcases assign_keys hb with hb | hb
        · simp [hb]; omega
        · exact hh.1 b hb

theorem allNotes_assign {key : Int} {n : List (NoteData P)} {vs : List (Int × List (NoteData P))} (h : ∀ v ∈ vs, v.1 ≠ key) :
    (allNotes (assign key n vs)).Perm (n ++ allNotes vs) := by
  induction vs with
  | nil => simp [assign, allNotes]
  | cons a vs ih =>
    obtain ⟨k', ns⟩ := a
    unfold assign
    split
    · simp [allNotes]
    · split
      · rename_i h2; exact absurd h2.symm (h (k', ns) (by simp))
      · have ih := ih (fun v hv => h v (by simp [hv]))
        simp only [allNotes, List.flatMap_cons] at ih ⊢
        refine (List.Perm.append_left ns ih).trans ?_
        rw [← List.append_assoc, ← List.append_assoc]
        exact List.Perm.append_right _ List.perm_append_comm

theorem mem_assign_self (key : Int) (n : List (NoteData P)) (vs : List (Int × List (NoteData P))) : (key, n) ∈ assign key n vs := by
  induction vs with
  | nil => simp [assign]
  | cons a vs ih =>
    obtain ⟨k, ns⟩ := a
    unfold assign
    split
    · simp
    · split
      · rename_i h; simp [h]
      · simp [ih]

theorem mem_assign_of_mem {key : Int} {n : List (NoteData P)} {vs : List (Int × List (NoteData P))} {v} (hv : v ∈ vs) (hk : v.1 ≠ key) :
    v ∈ assign key n vs := by
  induction vs with
  | nil => cases hv
  | cons a vs ih =>
    obtain ⟨k, ns⟩ := a
    unfold assign
    split
    · simp [List.mem_cons.mp hv]
    · split
      · rename_i h
        rcases List.mem_cons.mp hv with rfl | hv
        · exact absurd h.symm hk
        · simp [hv]
      · rcases List.mem_cons.mp hv with rfl | hv
        · simp
        · simp [ih hv]

/-- `takeUserVoices` on voices with distinct requested numbers. -/
theorem takeUserVoices_aux : ∀ (vs : List (Int × List (NoteData P))) (m : List (Int × List (NoteData P))) (seen : List Int),
    allConsistent seen vs = true → Ascending m → (∀ v ∈ m, v.1 + 1 ∈ seen) →
    let m' := vs.foldl (fun m v => assign (userVoiceOf v.2 - 1) v.2 m) m
    Ascending m' ∧ (allNotes m').Perm (allNotes m ++ allNotes vs) ∧
    ∀ w, w ∈ m' ↔ w ∈ m ∨ ∃ v ∈ vs, w = (userVoiceOf v.2 - 1, v.2) := by
  intro vs
  induction vs with
  | nil => intro m seen _ h _; exact ⟨h, by simp [allNotes], by simp⟩
  | cons v vs ih =>
    intro m seen hc ha hs
    unfold allConsistent at hc
    split at hc
    · cases hc
    · split at hc
      · cases hc
      · rename_i h1 h2
        have hne : ∀ w ∈ m, w.1 ≠ userVoiceOf v.2 - 1 := by
          intro w hw he
          have := hs w hw
          rw [he] at this
          apply h2
          rw [List.contains_iff_mem]
          simpa using this
        obtain ⟨a, b, c⟩ := ih (assign (userVoiceOf v.2 - 1) v.2 m) _ hc (assign_ascending ha) (by
          intro w hw
          rcases assign_keys hw with hw | hw
          · simp [hw]
          · simp [hs w hw])
        refine ⟨a, ?_, ?_⟩
        · simp only [List.foldl_cons]
          refine b.trans ((List.Perm.append_right _ (allNotes_assign hne)).trans ?_)
          simp only [allNotes, List.flatMap_cons]
          rw [← List.append_assoc]
          exact List.Perm.append_right _ List.perm_append_comm
        · intro w
          simp only [List.foldl_cons]
          rw [c w]
          constructor
          · rintro (h | ⟨x, hx, rfl⟩)
            · rcases assign_keys h with h | h
              · exact .inr ⟨v, by simp, h⟩
              · exact .inl h
            · exact .inr ⟨x, by simp [hx], rfl⟩
          · rintro (h | ⟨x, hx, rfl⟩)
            · exact .inl (mem_assign_of_mem h (hne w h))
            · rcases List.mem_cons.mp hx with rfl | hx
              · exact .inl (mem_assign_self _ _ _)
              · exact .inr ⟨x, hx, rfl⟩

theorem takeUserVoices_spec (vs : List (Int × List (NoteData P))) (h : allConsistent [] vs = true) :
    Ascending (takeUserVoices vs) ∧ (allNotes (takeUserVoices vs)).Perm (allNotes vs) ∧
    ∀ w, w ∈ takeUserVoices vs ↔ ∃ v ∈ vs, w = (userVoiceOf v.2 - 1, v.2) := by
  obtain ⟨a, b, c⟩ := takeUserVoices_aux vs [] [] h List.Pairwise.nil (by simp)
  refine ⟨a, by simpa [allNotes, takeUserVoices] using b, ?_⟩
  intro w
  have := c w
  simpa [takeUserVoices] using this

theorem collapseFrom_spec (vs : List (Int × List (NoteData P))) : ∀ i,
    (collapseFrom i vs).map (·.2) = vs.map (·.2) ∧ (∀ v ∈ collapseFrom i vs, i ≤ v.1) ∧ Ascending (collapseFrom i vs) := by
  induction vs with
  | nil => intro i; simp [collapseFrom, Ascending]
  | cons v vs ih =>
    intro i
    obtain ⟨a, b, c⟩ := ih (i + 1)
    refine ⟨by simp [collapseFrom, a], ?_, ?_⟩
    · intro w hw
      simp [collapseFrom] at hw
      rcases hw with rfl | hw
      · simp
      · have := b w hw; omega
    · refine List.pairwise_cons.mpr ⟨?_, c⟩
      intro w hw
      have := b w hw
      simp; omega

theorem allNotes_eq_of_map {vs ws : List (Int × List (NoteData P))} (h : vs.map (·.2) = ws.map (·.2)) : allNotes vs = allNotes ws := by
  unfold allNotes
  simp only [List.flatMap]
  rw [h]

theorem consolidate_spec (vs : List (Int × List (NoteData P))) :
    Ascending (consolidate vs) ∧ (allNotes (consolidate vs)).Perm (allNotes vs) ∧
    ∀ w ∈ consolidate vs, ∃ v ∈ vs, w.2 = v.2 := by
  unfold consolidate
  split
  · rename_i h
    obtain ⟨a, b, c⟩ := takeUserVoices_spec vs h
    refine ⟨a, b, ?_⟩
    intro w hw
    obtain ⟨v, hv, rfl⟩ := (c w).mp hw
    exact ⟨v, hv, rfl⟩
  · obtain ⟨a, _, c⟩ := collapseFrom_spec vs 0
    refine ⟨c, by rw [allNotes_eq_of_map a], ?_⟩
    intro w hw
    have : w.2 ∈ (collapseFrom 0 vs).map (·.2) := List.mem_map_of_mem hw
    rw [a] at this
    obtain ⟨v, hv, he⟩ := List.mem_map.mp this
    exact ⟨v, hv, he.symm⟩

/-- Voices are determined by their notes. -/
theorem notesAt_of_mem {vs : List (Int × List (NoteData P))} (h : Ascending vs) {v} (hv : v ∈ vs) : notesAt v.1 vs = v.2 := by
  induction vs with
  | nil => cases hv
  | cons a vs ih =>
    have hh := List.pairwise_cons.mp h
    rw [notesAt_cons]
    rcases List.mem_cons.mp hv with rfl | hv
    · rw [notesAt_nil_of_lt hh.1]; simp
    · have := hh.1 v hv
      rw [if_neg (by omega), ih hh.2 hv]; rfl

theorem notesAt_eq_nil {vs : List (Int × List (NoteData P))} {k : Int} (h : ∀ v ∈ vs, v.1 ≠ k) : notesAt k vs = [] := by
  unfold notesAt
  rw [List.filter_eq_nil_iff.mpr (by simpa using h)]; rfl

theorem mem_iff_notesAt {vs : List (Int × List (NoteData P))} (h : Ascending vs) (hn : NoEmpty vs) (v : Int × List (NoteData P)) :
    v ∈ vs ↔ v.2 ≠ [] ∧ notesAt v.1 vs = v.2 := by
  constructor
  · intro hv; exact ⟨hn v hv, notesAt_of_mem h hv⟩
  · rintro ⟨h1, h2⟩
    by_cases hk : ∃ w ∈ vs, w.1 = v.1
    · obtain ⟨w, hw, hwk⟩ := hk
      have := notesAt_of_mem h hw
      rw [hwk, h2] at this
      have : v = w := by ext1 <;> simp_all
      rw [this]; exact hw
    · rw [notesAt_eq_nil (by
        intro w hw he; exact hk ⟨w, hw, he⟩)] at h2
      exact absurd h2.symm h1

/-- Two maps with the same notes at every key are equal. -/
theorem voices_ext {vs ws : List (Int × List (NoteData P))} (h1 : Ascending vs) (h2 : Ascending ws)
    (h : ∀ v, v ∈ vs ↔ v ∈ ws) : vs = ws := by
  have nd : ∀ {l : List (Int × List (NoteData P))}, Ascending l → l.Nodup := by
    intro l hl
    exact hl.imp (fun {a b} hab he => by rw [he] at hab; omega)
  have hp : vs.Perm ws := (List.perm_ext_iff_of_nodup (nd h1) (nd h2)).mpr h
  exact hp.eq_of_pairwise (fun a b _ _ h h' => by omega) h1 h2

/-- `allConsistent` in words. -/
theorem allConsistent_iff (vs : List (Int × List (NoteData P))) : ∀ seen, allConsistent seen vs = true ↔
    (∀ v ∈ vs, isConsistent v.2 = true ∧ userVoiceOf v.2 ∉ seen) ∧ (vs.map (fun v => userVoiceOf v.2)).Nodup := by
  induction vs with
  | nil => intro seen; simp [allConsistent]
  | cons v vs ih =>
    intro seen
    unfold allConsistent
    cases hc : isConsistent v.2 with
    | false => simp [hc]
    | true =>
      by_cases hs : userVoiceOf v.2 ∈ seen
      · simp [hs]
      · simp only [Bool.not_true, Bool.false_eq_true, if_false, List.contains_iff_mem, hs, ih]
        simp only [List.mem_cons, not_or, List.map_cons, List.nodup_cons, List.mem_map, not_exists, not_and]
        constructor
        · rintro ⟨h1, h2⟩
          refine ⟨?_, ?_, h2⟩
          · rintro w (rfl | hw)
            · exact ⟨hc, hs⟩
            · exact ⟨(h1 w hw).1, (h1 w hw).2.2⟩
          · intro w hw he; exact (h1 w hw).2.1 he
        · rintro ⟨h1, h2, h3⟩
          refine ⟨?_, h3⟩
          intro w hw
          exact ⟨(h1 w (.inr hw)).1, h2 w hw, (h1 w (.inr hw)).2⟩

theorem isConsistent_iff (ns : List (NoteData P)) (h : ns ≠ []) :
    isConsistent ns = true ↔ 1 ≤ userVoiceOf ns ∧ ∀ n ∈ ns, n.userVoice = userVoiceOf ns := by
  cases ns with
  | nil => exact absurd rfl h
  | cons a t =>
    unfold isConsistent userVoiceOf
    simp only
    by_cases h1 : a.userVoice < 1
    · simp [h1]; omega
    · simp [h1]; omega

end Mx.Measure
