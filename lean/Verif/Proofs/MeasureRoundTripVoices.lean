import Verif.Proofs.MeasureRoundTrip
import Verif.Spec.MeasureRoundTrip

/-! The voices of a staff after writing and reading. -/
namespace Mx.Measure
open Spec

variable {P : Type}

theorem continues_iff (a b : NoteData P) : continues a b = true ↔ SameChord a b := by
  unfold continues SameChord
  simp [and_assoc]

/-- the note with the number of its voice -/
def numbered (voice : Int) (n : NoteData P) : NoteData P := { n with userVoice := voice }

/-- A voice that never goes back. -/
theorem asRead_forward (staff voice : Int) : ∀ (ns : List (NoteData P)) (tick vi : Int) (prev : Option (NoteData P)),
    (∀ n ∈ ns.head?, tick ≤ n.tick) → ns.IsChain NoOverlap → ChordsComplete prev ns →
    (∀ n ∈ ns.head?, cameFrom prev n = true → n.isChord = true) →
    asRead staff voice tick vi (headFrom prev ns) ns = ns.map (fun n => ReadNote.mk staff vi (numbered voice n)) ∧
    voiceAfter tick vi ns = vi := by
  intro ns
  induction ns with
  | nil => intro tick vi prev _ _ _ _; exact ⟨rfl, rfl⟩
  | cons n rest ih =>
    intro tick vi prev hh hc hk hp
    have ht : tick ≤ n.tick := hh n (by simp)
    have hc' : rest.IsChain NoOverlap := by
      cases rest with
      | nil => exact List.IsChain.nil
      | cons b t => exact (List.isChain_cons_cons.mp hc).2
    have hnext : ∀ b ∈ rest.head?, (if chordGoesOn n rest.head? then n.tick else n.tick + n.ticks) ≤ b.tick := by
      intro b hb
      cases rest with
      | nil => simp at hb
      | cons c t =>
        simp at hb; subst hb
        have hno := (List.isChain_cons_cons.mp hc).1
        have hg : chordGoesOn n (c :: t).head? = continues n c := rfl
        rw [hg]
        by_cases h : continues n c = true
        · rw [if_pos h]; rw [continues_iff] at h; exact le_of_eq h.2.2.symm
        · rw [if_neg h]
          rcases hno with h' | h'
          · exact h'
          · exact absurd ((continues_iff _ _).mpr h') h
    have hp' : ∀ b ∈ rest.head?, cameFrom (some n) b = true → b.isChord = true := by
      intro b _ h
      exact ((continues_iff _ _).mp h).2.1
    obtain ⟨i1, i2⟩ := ih _ vi (some n) hnext hc' hk.2 hp'
    have hgo : chordGoesOn n rest.head? = headFrom (some n) rest := by cases rest <;> rfl
    have hflag : (cameFrom prev n || chordGoesOn n rest.head?) = n.isChord := by
      cases hn : n.isChord with
      | true =>
        rcases hk.1 hn with ⟨p, hp1, hp2⟩ | ⟨q, hq1, hq2⟩
        · simp at hp1; rw [hp1]
          have := (continues_iff p n).mpr hp2
          simp [cameFrom, this]
        · simp at hq1
          have := (continues_iff n q).mpr hq2
          simp [chordGoesOn, hq1, this]
      | false =>
        have h1 : cameFrom prev n = false := by
          cases hcf : cameFrom prev n with
          | false => rfl
          | true => have := hp n (by simp) hcf; rw [hn] at this; cases this
        have h2 : chordGoesOn n rest.head? = false := by
          unfold chordGoesOn continues
          rw [hn]; cases rest.head? <;> simp
        rw [h1, h2]; rfl
    constructor
    · simp only [asRead, List.map_cons, headFrom]
      rw [if_neg (by omega), hflag]
      congr 1
      rw [hgo] at i1 ⊢
      exact i1
    · simp only [voiceAfter]
      rw [if_neg (c := n.tick < tick) (by omega)]
      exact i2

/-- the counter of the voice -/
def bumped (tick vi : Int) (ns : List (NoteData P)) : Int := if voiceStart ns < tick then vi + 1 else vi

theorem asRead_voice (staff voice tick vi : Int) (ns : List (NoteData P)) (hne : ns ≠ []) (hc : ns.IsChain NoOverlap) (hk : ChordsComplete none ns) :
    asRead staff voice tick vi false ns = ns.map (fun n => ReadNote.mk staff (bumped tick vi ns) (numbered voice n)) ∧
    voiceAfter tick vi ns = bumped tick vi ns := by
  cases ns with
  | nil => exact absurd rfl hne
  | cons n rest =>
    have h := asRead_forward staff voice (n :: rest) n.tick (bumped tick vi (n :: rest)) none (by simp) hc hk (by simp [cameFrom])
    have hb : bumped tick vi (n :: rest) = if n.tick < tick then vi + 1 else vi := rfl
    have hf : headFrom none (n :: rest) = false := rfl
    rw [hf] at h
    rw [hb] at h ⊢
    simp only [asRead, voiceAfter] at h ⊢
    rw [if_neg (by omega)] at h
    exact h

theorem tickAfter_end : ∀ (ns : List (NoteData P)) (tick : Int), ns ≠ [] → tickAfter tick ns = voiceEnd ns := by
  intro ns
  induction ns with
  | nil => intro _ h; exact absurd rfl h
  | cons n rest ih =>
    intro tick _
    cases rest with
    | nil => simp [tickAfter, voiceEnd, chordGoesOn]
    | cons b t =>
      rw [tickAfter, ih _ (by simp)]
      unfold voiceEnd
      rw [List.getLast?_cons_cons]

theorem voicesRead_sounding (staff : Int) : ∀ (vs : List (Int × List (NoteData P))) (acc : Int × Int),
    voicesRead staff acc vs = voicesRead staff acc (vs.filter (fun v => !v.2.isEmpty)) := by
  intro vs
  induction vs with
  | nil => intro acc; rfl
  | cons v vs ih =>
    intro acc
    by_cases h : v.2 = []
    · have : (v :: vs).filter (fun v => !v.2.isEmpty) = vs.filter (fun v => !v.2.isEmpty) := by simp [h]
      rw [this, ← ih acc]
      simp [voicesRead, h, asRead, tickAfter, voiceAfter]
    · have : (v :: vs).filter (fun v => !v.2.isEmpty) = v :: vs.filter (fun v => !v.2.isEmpty) := by simp [h]
      rw [this]
      simp only [voicesRead]
      rw [ih]

/-! ### inserting -/

theorem insertNote_last {k : Int} {n : NoteData P} : ∀ {m : List (Int × List (NoteData P))}, (∀ v ∈ m, v.1 < k) →
    insertNote k n m = m ++ [(k, [n])] := by
  intro m
  induction m with
  | nil => intro _; rfl
  | cons v m ih =>
    intro h
    have := h v (by simp)
    rw [insertNote, if_neg (by omega), if_neg (by omega), ih (fun w hw => h w (by simp [hw]))]
    rfl

theorem insertNote_at {k : Int} {n : NoteData P} {xs : List (NoteData P)} : ∀ {m : List (Int × List (NoteData P))}, (∀ v ∈ m, v.1 < k) →
    insertNote k n (m ++ [(k, xs)]) = m ++ [(k, xs ++ [n])] := by
  intro m
  induction m with
  | nil => intro _; simp [insertNote]
  | cons v m ih =>
    intro h
    have := h v (by simp)
    rw [List.cons_append, insertNote, if_neg (by omega), if_neg (by omega), ih (fun w hw => h w (by simp [hw]))]
    rfl

theorem foldl_insert {k : Int} {m : List (Int × List (NoteData P))} (h : ∀ v ∈ m, v.1 < k) : ∀ (ns xs : List (NoteData P)) (s : Int),
    (ns.map (fun n => ReadNote.mk s k n)).foldl (fun m r => insertNote r.voice r.note m) (m ++ [(k, xs)]) = m ++ [(k, xs ++ ns)] := by
  intro ns
  induction ns with
  | nil => intro xs s; simp
  | cons n ns ih =>
    intro xs s
    simp only [List.map_cons, List.foldl_cons]
    rw [insertNote_at h, ih]
    simp

theorem foldl_insert_new {k : Int} {m : List (Int × List (NoteData P))} (h : ∀ v ∈ m, v.1 < k) (ns : List (NoteData P)) (hne : ns ≠ []) (s : Int) :
    (ns.map (fun n => ReadNote.mk s k n)).foldl (fun m r => insertNote r.voice r.note m) m = m ++ [(k, ns)] := by
  cases ns with
  | nil => exact absurd rfl hne
  | cons n ns =>
    simp only [List.map_cons, List.foldl_cons]
    rw [insertNote_last h, foldl_insert h]
    simp

/-- All voices of a staff, with the counters `ks` the reader gives them. -/
theorem insert_voices (staff : Int) : ∀ (vs : List (Int × List (NoteData P))) (acc : Int × Int) (m : List (Int × List (NoteData P))),
    (∀ v ∈ vs, v.2 ≠ [] ∧ v.2.IsChain NoOverlap ∧ ChordsComplete none v.2) →
    (∀ w ∈ m, w.1 ≤ acc.2) → (m ≠ [] → ∀ v ∈ vs.head?, voiceStart v.2 < acc.1) →
    vs.IsChain (fun v w => voiceStart w.2 < voiceEnd v.2) →
    ∃ ks : List Int, ks.length = vs.length ∧
      (voicesRead staff acc vs).foldl (fun m r => insertNote r.voice r.note m) m =
        m ++ List.zipWith (fun k v => (k, v.2.map (numbered (v.1 + 1)))) ks vs := by
  intro vs
  induction vs with
  | nil => intro acc m _ _ _ _; exact ⟨[], rfl, by simp [voicesRead]⟩
  | cons v vs ih =>
    intro acc m hv hm hstart hch
    obtain ⟨hne, hc, hk⟩ := hv v (by simp)
    obtain ⟨a1, a2⟩ := asRead_voice staff (v.1 + 1) acc.1 acc.2 v.2 hne hc hk
    have hlt : ∀ w ∈ m, w.1 < bumped acc.1 acc.2 v.2 := by
      intro w hw
      have h1 := hm w hw
      have h2 := hstart (List.ne_nil_of_mem hw) v (by simp)
      unfold bumped; rw [if_pos h2]; omega
    have hch' : vs.IsChain (fun v w => voiceStart w.2 < voiceEnd v.2) := by
      cases vs with
      | nil => exact List.IsChain.nil
      | cons b t => exact (List.isChain_cons_cons.mp hch).2
    have hins := foldl_insert_new hlt (v.2.map (numbered (v.1 + 1))) (by simpa using hne) staff
    rw [List.map_map] at hins
    obtain ⟨ks, k1, k2⟩ := ih (tickAfter acc.1 v.2, voiceAfter acc.1 acc.2 v.2) (m ++ [(bumped acc.1 acc.2 v.2, v.2.map (numbered (v.1 + 1)))])
      (fun w hw => hv w (by simp [hw]))
      (by
        intro w hw
        simp only [a2]
        rcases List.mem_append.mp hw with h | h
        · exact le_of_lt (hlt w h)
        · simp at h; rw [h])
      (by
        intro _ w hw
        simp only
        rw [tickAfter_end _ _ hne]
        cases vs with
        | nil => simp at hw
        | cons b t =>
          simp at hw; subst hw
          exact (List.isChain_cons_cons.mp hch).1)
      hch'
    refine ⟨bumped acc.1 acc.2 v.2 :: ks, by simp [k1], ?_⟩
    simp only [voicesRead, List.foldl_append]
    rw [a1]
    have hfun : (fun n => ReadNote.mk staff (bumped acc.1 acc.2 v.2) n) ∘ numbered (v.1 + 1) =
        (fun n : NoteData P => ReadNote.mk staff (bumped acc.1 acc.2 v.2) (numbered (v.1 + 1) n)) := rfl
    rw [hfun] at hins
    rw [hins, k2]
    simp

theorem userVoiceOf_numbered {k : Int} {ns : List (NoteData P)} (h : ns ≠ []) : userVoiceOf (ns.map (numbered k)) = k := by
  cases ns with
  | nil => exact absurd rfl h
  | cons n ns => rfl

theorem isConsistent_numbered {k : Int} (hk : 1 ≤ k) (ns : List (NoteData P)) : isConsistent (ns.map (numbered k)) = true := by
  cases ns with
  | nil => rfl
  | cons n ns =>
    simp only [List.map_cons, isConsistent]
    rw [if_neg (by simp [numbered]; omega)]
    simp [numbered]

theorem assign_last {k : Int} {ns : List (NoteData P)} : ∀ {m : List (Int × List (NoteData P))}, (∀ v ∈ m, v.1 < k) →
    assign k ns m = m ++ [(k, ns)] := by
  intro m
  induction m with
  | nil => intro _; rfl
  | cons v m ih =>
    intro h
    have := h v (by simp)
    rw [assign, if_neg (by omega), if_neg (by omega), ih (fun w hw => h w (by simp [hw]))]
    rfl

theorem allConsistent_zip : ∀ (vs : List (Int × List (NoteData P))) (ks : List Int) (seen : List Int),
    (∀ v ∈ vs, v.2 ≠ [] ∧ 0 ≤ v.1) → vs.Pairwise (fun a b => a.1 < b.1) → (∀ v ∈ vs, v.1 + 1 ∉ seen) →
    allConsistent seen (List.zipWith (fun k v => (k, v.2.map (numbered (v.1 + 1)))) ks vs) = true := by
  intro vs
  induction vs with
  | nil => intro ks seen _ _ _; simp [allConsistent]
  | cons v vs ih =>
    intro ks seen h hp hs
    cases ks with
    | nil => simp [allConsistent]
    | cons k ks =>
      have hv := h v (by simp)
      simp only [List.zipWith_cons_cons, allConsistent]
      rw [isConsistent_numbered (by omega), userVoiceOf_numbered hv.1]
      have : seen.contains (v.1 + 1) = false := by simpa using hs v (by simp)
      rw [this]
      simp only [Bool.not_true, Bool.false_eq_true, if_false]
      rw [List.pairwise_cons] at hp
      apply ih ks _ (fun w hw => h w (by simp [hw])) hp.2
      intro w hw
      have h1 := hp.1 w hw
      have h2 := hs w (by simp [hw])
      simp only [List.mem_cons, not_or]
      exact ⟨by omega, h2⟩

theorem takeUser_zip : ∀ (vs : List (Int × List (NoteData P))) (ks : List Int) (m : List (Int × List (NoteData P))), ks.length = vs.length →
    (∀ v ∈ vs, v.2 ≠ []) → vs.Pairwise (fun a b => a.1 < b.1) → (∀ w ∈ m, ∀ v ∈ vs, w.1 < v.1) →
    (List.zipWith (fun k v => (k, v.2.map (numbered (v.1 + 1)))) ks vs).foldl (fun m v => assign (userVoiceOf v.2 - 1) v.2 m) m =
      m ++ vs.map (fun v => (v.1, v.2.map (numbered (v.1 + 1)))) := by
  intro vs
  induction vs with
  | nil => intro ks m hl _ _ _; simp
  | cons v vs ih =>
    intro ks m hl h hp hm
    cases ks with
    | nil => simp at hl
    | cons k ks =>
      rw [List.pairwise_cons] at hp
      simp only [List.zipWith_cons_cons, List.foldl_cons]
      rw [userVoiceOf_numbered (h v (by simp))]
      have e : v.1 + 1 - 1 = v.1 := by omega
      rw [e, assign_last (fun w hw => hm w hw v (by simp)), ih ks _ (by simpa using hl) (fun w hw => h w (by simp [hw])) hp.2]
      · simp
      · intro w hw u hu
        rcases List.mem_append.mp hw with hw | hw
        · exact hm w hw u (by simp [hu])
        · simp at hw; rw [hw]; exact hp.1 u hu

/-- The voices of a staff survive. -/
theorem consolidate_voicesRead (staff : Int) (acc : Int × Int) (s : StaffData P) (h : StaffReadable s) :
    consolidate ((voicesRead staff acc s.voices).foldl (fun m r => insertNote r.voice r.note m) []) = voicesExpected s := by
  rw [voicesRead_sounding]
  have hsub : ∀ v ∈ StaffData.sounding s, v ∈ s.voices ∧ v.2 ≠ [] := by
    intro v hv
    have := List.mem_filter.mp hv
    exact ⟨this.1, by simpa using this.2⟩
  have hasc : (StaffData.sounding s).Pairwise (fun a b => a.1 < b.1) := h.ascending.filter _
  obtain ⟨ks, k1, k2⟩ := insert_voices staff (StaffData.sounding s) acc []
    (fun v hv => ⟨(hsub v hv).2, h.noOverlap v (hsub v hv).1, h.chords v (hsub v hv).1⟩) (by simp) (by simp) h.overlap
  have hs : s.voices.filter (fun v => !v.2.isEmpty) = StaffData.sounding s := rfl
  rw [hs, k2, List.nil_append]
  unfold consolidate
  rw [if_pos (allConsistent_zip _ _ _ (fun v hv => ⟨(hsub v hv).2, h.keys v (hsub v hv).1⟩) hasc (by simp))]
  unfold takeUserVoices
  rw [takeUser_zip _ _ _ k1 (fun v hv => (hsub v hv).2) hasc (by simp)]
  rfl

theorem asRead_staff (staff voice : Int) : ∀ (ns : List (NoteData P)) (t vi : Int) (b : Bool), ∀ r ∈ asRead staff voice t vi b ns, r.staff = staff := by
  intro ns
  induction ns with
  | nil => intro t vi b r h; simp [asRead] at h
  | cons n rest ih =>
    intro t vi b r h
    simp only [asRead, List.mem_cons] at h
    rcases h with rfl | h
    · rfl
    · exact ih _ _ _ r h

theorem voicesRead_staff (staff : Int) : ∀ (vs : List (Int × List (NoteData P))) (acc : Int × Int), ∀ r ∈ voicesRead staff acc vs, r.staff = staff := by
  intro vs
  induction vs with
  | nil => intro acc r h; simp [voicesRead] at h
  | cons v vs ih =>
    intro acc r h
    simp only [voicesRead, List.mem_append] at h
    rcases h with h | h
    · exact asRead_staff _ _ _ _ _ _ r h
    · exact ih _ r h

theorem stavesRead_staff : ∀ (ss : List (StaffData P)) (i : Int) (acc : Int × Int), ∀ r ∈ stavesRead i acc ss, i ≤ r.staff := by
  intro ss
  induction ss with
  | nil => intro i acc r h; simp [stavesRead] at h
  | cons s rest ih =>
    intro i acc r h
    simp only [stavesRead, List.mem_append] at h
    rcases h with h | h
    · rw [voicesRead_staff _ _ _ r h]
    · have := ih _ _ r h; omega

theorem filter_stavesRead : ∀ (ss : List (StaffData P)) (j : Int) (acc : Int × Int) (k : Nat) (s : StaffData P), ss[k]? = some s →
    ∃ acc', (stavesRead j acc ss).filter (fun r => r.staff = j + k) = voicesRead (j + k) acc' s.voices := by
  intro ss
  induction ss with
  | nil => intro j acc k s h; simp at h
  | cons s0 rest ih =>
    intro j acc k s h
    simp only [stavesRead, List.filter_append]
    cases k with
    | zero =>
      simp at h; subst h
      refine ⟨acc, ?_⟩
      have h1 : (voicesRead j acc s0.voices).filter (fun r => decide (r.staff = j + ((0 : Nat) : Int))) = voicesRead j acc s0.voices := by
        rw [List.filter_eq_self]; intro r hr; simpa using voicesRead_staff _ _ _ r hr
      have h2 : (stavesRead (j + 1) (voicesEnd acc s0.voices) rest).filter (fun r => decide (r.staff = j + ((0 : Nat) : Int))) = [] := by
        rw [List.filter_eq_nil_iff]; intro r hr; have := stavesRead_staff _ _ _ r hr; simp; omega
      rw [h1, h2]; simp
    | succ k =>
      obtain ⟨acc', h3⟩ := ih (j + 1) (voicesEnd acc s0.voices) k s (by simpa using h)
      refine ⟨acc', ?_⟩
      have h1 : (voicesRead j acc s0.voices).filter (fun r => decide (r.staff = j + ((k + 1 : Nat) : Int))) = [] := by
        rw [List.filter_eq_nil_iff]; intro r hr; have := voicesRead_staff _ _ _ r hr; simp; omega
      have e : j + ((k + 1 : Nat) : Int) = j + 1 + k := by push_cast; ring
      rw [h1, e, h3]; simp

end Mx.Measure
