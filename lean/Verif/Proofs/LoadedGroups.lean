import Verif.Proofs.Loaded

/-
The groups.
-/
open Mx.Spec
namespace Mx.Content

def Steadies (l : List Child) : Prop := ∀ x ∈ l, Steady x

theorem steadies_cons {x : Child} {l : List Child} (h : Steadies (x :: l)) : Steady x ∧ Steadies l := ⟨h x (by simp), fun y hy => h y (by simp [hy])⟩
theorem steadies_drop {l : List Child} (h : Steadies l) (n : Nat) : Steadies (l.drop n) := fun x hx => h x (List.mem_of_mem_drop hx)
theorem steadies_run {l : List Child} (h : Steadies l) (n : Nat) : Steadies (runItems n l) := fun x hx => h x ((List.takeWhile_sublist _).subset hx)

def Part.openB (c : Cls) : Part → Bool
  | .one _ _ => true
  | .run _ i => Content.openB c i

theorem is_readParts {c : Cls} : ∀ (ps : List Part) {g : Node} {l : List Child}, ps.all (Part.openB c) = true → Is (.comp c) g → Steadies l → Is (.comp c) (readParts ps g l).obj
  | [], g, l, _, h, _ => by simpa [readParts] using h
  | .one name i :: ps, g, [], _, h, _ => by simpa [readParts] using h
  | .run name i :: ps, g, [], _, h, _ => by simpa [readParts] using h
  | .one name i :: ps, g, x :: xs, hp, h, hl => by
    simp only [List.all_cons, Bool.and_eq_true] at hp
    obtain ⟨hx, hxs⟩ := steadies_cons hl
    rw [readParts]
    split
    · exact is_readParts ps hp.2 (is_inner h fun m _ n hn => hx m.kind n hn) hxs
    · exact is_readParts ps hp.2 h hl
  | .run name i :: ps, g, x :: xs, hp, h, hl => by
    simp only [List.all_cons, Bool.and_eq_true] at hp
    rw [readParts]
    refine is_readParts ps hp.2 ?_ (steadies_drop hl _)
    split
    · exact h
    · rename_i hne
      refine is_addRun h hp.1 ?_ ?_
      · intro e
        apply hne
        simp only [List.map_eq_nil_iff] at e
        rw [e]; rfl
      · intro m hm n hn
        simp only [List.map_map, List.mem_map, Function.comp_apply] at hn
        obtain ⟨y, hy, rfl⟩ := hn
        exact steadies_run hl name y hy _ _ (is_newItem h hm)

/-- The objects of a run. -/
theorem is_runItems {c : Cls} {o : Node} (h : Is (.comp c) o) {i : Nat} {l : List Child} (hl : Steadies l) : ∀ m, c.info.members[i]? = some m → ∀ n ∈ l.map (fun y => (y.read (o.newItem i)).1), Is m.kind n := by
  intro m hm n hn
  obtain ⟨y, hy, rfl⟩ := List.mem_map.mp hn
  exact hl y hy _ _ (is_newItem h hm)

theorem is_midiGroups {new : Node} (h : Is (.comp .MidiDeviceInstrumentGroup) new) : ∀ {l : List Child}, Steadies l → ∀ n ∈ (midiGroups new l).1, Is (.comp .MidiDeviceInstrumentGroup) n
  | [], _, n, hn => by simp [midiGroups] at hn
  | [x], hl, n, hn => by
    obtain ⟨hx, _⟩ := steadies_cons hl
    rw [midiGroups] at hn
    split at hn
    · simp only [List.mem_singleton] at hn
      subst hn
      exact is_inner h fun m _ n hn => hx m.kind n hn
    · split at hn
      · simp only [List.mem_singleton] at hn
        subst hn
        exact is_inner h fun m _ n hn => hx m.kind n hn
      · simp at hn
  | x :: y :: l, hl, n, hn => by
    obtain ⟨hx, hyl⟩ := steadies_cons hl
    obtain ⟨hy, hl'⟩ := steadies_cons hyl
    rw [midiGroups] at hn
    split at hn
    · split at hn
      · simp only [List.mem_cons] at hn
        rcases hn with rfl | hn
        · exact is_inner (is_inner h fun m _ n hn => hx m.kind n hn) fun m _ n hn => hy m.kind n hn
        · exact is_midiGroups h hl' n hn
      · simp only [List.mem_cons] at hn
        rcases hn with rfl | hn
        · exact is_inner h fun m _ n hn => hx m.kind n hn
        · exact is_midiGroups h hyl n hn
    · split at hn
      · simp only [List.mem_cons] at hn
        rcases hn with rfl | hn
        · exact is_inner h fun m _ n hn => hx m.kind n hn
        · exact is_midiGroups h hyl n hn
      · simp at hn

theorem is_readGroups {c : Cls} {names : List Nat} {ps : List Part} (hp : ps.all (Part.openB c) = true) {new : Node} (h : Is (.comp c) new) : ∀ (f : Nat) {l : List Child}, Steadies l → ∀ n ∈ (readGroups names ps new f l).1, Is (.comp c) n
  | 0, _, _, n, hn => by simp [readGroups] at hn
  | f + 1, l, hl, n, hn => by
    rw [readGroups] at hn
    split at hn
    · simp only [List.mem_cons] at hn
      rcases hn with rfl | hn
      · exact is_readParts ps hp h hl
      · exact is_readGroups hp h f (steadies_drop hl _) n hn
    · simp at hn

theorem readGroups_ne {names : List Nat} {ps : List Part} {new : Node} {f : Nat} {l : List Child} (h : headIn names l = true) : (readGroups names ps new (f + 1) l).1 ≠ [] := by
  rw [readGroups, if_pos h]
  simp

theorem field_mem {fs : List Field} {name : Nat} {f : Nat × Option Nat} (h : field fs name = some f) : ∃ p ∈ fs, p.2 = f := by
  unfold field at h
  cases hf : fs.find? (fun f => Nat.beq f.1 name) with
  | none => rw [hf] at h; simp at h
  | some p =>
    rw [hf] at h
    simp only [Option.map_some, Option.some.injEq] at h
    exact ⟨p, List.mem_of_find?_eq_some hf, h⟩

def fieldsB (c : Cls) (fs : List Field) : Bool := fs.all fun f => chooseB c f.2.2

theorem is_fields {c : Cls} {g : Node} (h : Is (.comp c) g) {fs : List Field} (hf : fieldsB c fs = true) {name : Nat} {f : Nat × Option Nat} (hn : field fs name = some f) {x : Child} (hx : Steady x) :
    Is (.comp c) (g.readField f x).1 := by
  obtain ⟨p, hp, rfl⟩ := field_mem hn
  exact is_readField h (List.all_eq_true.mp hf p hp) hx

/-! ## Notes -/

theorem is_fullNote {g : Node} (h : Is (.comp .FullNoteGroup) g) {l : List Child} (hl : Steadies l) : Is (.comp .FullNoteGroup) (fullNote g l).obj := by
  cases l with
  | nil => exact h
  | cons x xs =>
    obtain ⟨_, hxs⟩ := steadies_cons hl
    simp only [fullNote]
    have hg : Is (.comp .FullNoteGroup) (if Nat.beq x.name (nm! "chord") = true then g.changeItems 0 (fun s => .mk true s.kids) else g) := by
      split
      · exact is_flag h true
      · exact h
    have hl' : Steadies (if Nat.beq x.name (nm! "chord") = true then xs else x :: xs) := by
      split
      · exact hxs
      · exact hl
    revert hg hl'
    generalize (if Nat.beq x.name (nm! "chord") = true then g.changeItems 0 (fun s => Slot.mk true s.kids) else g) = g'
    generalize (if Nat.beq x.name (nm! "chord") = true then xs else x :: xs) = l'
    intro hg hl'
    cases l' with
    | nil => exact hg
    | cons y ys =>
      simp only
      cases hf : field [(nm! "pitch", 0, some 0), (nm! "unpitched", 1, some 1), (nm! "rest", 2, some 2)] y.name with
      | none => exact hg
      | some f =>
        refine is_inner hg ?_
        intro m hm n hn
        cases hm
        exact is_fields hn (by decide +kernel) hf (steadies_cons hl').1

theorem is_addTies {c : Cls} {i : Nat} (hb : isSetB c i = true) : ∀ {l : List Child} {g : Node}, Is (.comp c) g → Steadies l → Is (.comp c) (addTies g i l).1
  | [], _, h, _ => h
  | x :: xs, g, h, hl => by
    obtain ⟨hx, hxs⟩ := steadies_cons hl
    rw [addTies]
    exact is_addTies hb (is_push h hb fun m hm => hx _ _ (is_newItem h hm)) hxs

theorem is_graceNote {g : Node} (h : Is (.comp .GraceNoteGroup) g) {x : Child} (hx : Steady x) {l : List Child} (hl : Steadies l) : Is (.comp .GraceNoteGroup) (graceNote x l g).obj := by
  have ha : Is (.comp .GraceNoteGroup) (g.inner 0 x.read).1 := is_inner h fun m _ n hn => hx m.kind n hn
  simp only [graceNote]
  cases hk : (g.inner 0 x.read).1.kid? 1 with
  | none => exact h
  | some full =>
    refine is_addTies (by decide +kernel) (is_setKid ha hk ?_) (steadies_run (steadies_drop hl _) _)
    obtain ⟨m, hm, hf⟩ := is_kid ha hk
    intro m' hm'
    cases hm; cases hm'
    exact is_fullNote hf hl

theorem is_noteDuration {c : Cls} {i : Nat} {g : Node} (h : Is (.comp c) g) {l : List Child} (hl : Steadies l) : Is (.comp c) (noteDuration i g l).obj := by
  cases l with
  | nil => exact h
  | cons x xs =>
    simp only [noteDuration]
    split
    · exact is_inner h fun m _ n hn => (steadies_cons hl).1 m.kind n hn
    · exact h

theorem is_cueNote {g : Node} (h : Is (.comp .CueNoteGroup) g) {x : Child} (hx : Steady x) {l : List Child} (hl : Steadies l) : Is (.comp .CueNoteGroup) (cueNote x l g).obj := by
  have ha : Is (.comp .CueNoteGroup) (g.inner 0 x.read).1 := is_inner h fun m _ n hn => hx m.kind n hn
  simp only [cueNote]
  cases hk : (g.inner 0 x.read).1.kid? 1 with
  | none => exact h
  | some full =>
    refine is_noteDuration (is_setKid ha hk ?_) (steadies_drop hl _)
    obtain ⟨m, hm, hf⟩ := is_kid ha hk
    intro m' hm'
    cases hm; cases hm'
    exact is_fullNote hf hl

theorem is_normalNote {g : Node} (h : Is (.comp .NormalNoteGroup) g) {l : List Child} (hl : Steadies l) : Is (.comp .NormalNoteGroup) (normalNote l g).obj := by
  simp only [normalNote]
  cases hk : g.kid? 0 with
  | none => exact h
  | some full =>
    refine is_addTies (by decide +kernel) (is_noteDuration (is_setKid h hk ?_) (steadies_drop hl _)) (steadies_run (steadies_drop hl _) _)
    obtain ⟨m, hm, hf⟩ := is_kid h hk
    intro m' hm'
    cases hm; cases hm'
    exact is_fullNote hf hl

theorem is_noteChoice {g : Node} (h : Is (.comp .NoteChoice) g) {l : List Child} (hl : Steadies l) : Is (.comp .NoteChoice) (noteChoice l g).obj := by
  cases l with
  | nil => exact h
  | cons x xs =>
    obtain ⟨hx, hxs⟩ := steadies_cons hl
    simp only [noteChoice]
    split
    · refine is_innerGot (is_choose h (by decide +kernel)) ?_
      intro m hm n hn
      cases hm
      exact is_graceNote hn hx hxs
    · split
      · refine is_innerGot (is_choose h (by decide +kernel)) ?_
        intro m hm n hn
        cases hm
        exact is_cueNote hn hx hxs
      · refine is_innerGot (is_choose h (by decide +kernel)) ?_
        intro m hm n hn
        cases hm
        exact is_normalNote hn hl

/-! ## Harmony, lyric, metronome -/

theorem is_harmonyChord {g : Node} (h : Is (.comp .HarmonyChordGroup) g) {l : List Child} (hl : Steadies l) : Is (.comp .HarmonyChordGroup) (harmonyChord g l).obj := by
  match l, hl with
  | [], _ => exact h
  | [_], _ => exact h
  | x :: y :: l, hl =>
    obtain ⟨hx, hyl⟩ := steadies_cons hl
    obtain ⟨hy, hl'⟩ := steadies_cons hyl
    simp only [harmonyChord]
    have ha : Is (.comp .HarmonyChordGroup) (if Nat.beq x.name (nm! "root") = true then g.readField (0, some 0) x else g.readField (1, some 1) x).1 := by
      split
      · exact is_readField h (by decide +kernel) hx
      · exact is_readField h (by decide +kernel) hx
    split
    · exact is_readParts _ (by decide +kernel) (is_inner ha fun m _ n hn => hy m.kind n hn) hl'
    · exact ha

theorem is_elisionGroup {g : Node} (h : Is (.comp .ElisionSyllabicTextGroup) g) {l : List Child} (hl : Steadies l) : Is (.comp .ElisionSyllabicTextGroup) (elisionGroup g l).obj := by
  unfold elisionGroup
  extract_lets isS a b
  have ha : Is (.comp .ElisionSyllabicTextGroup) a.obj := by
    simp only [a]
    cases l with
    | nil => exact h
    | cons x xs =>
      simp only
      split
      · refine is_inner h ?_
        intro m hm n hn
        cases hm
        exact is_inner hn fun m _ n hn => (steadies_cons hl).1 m.kind n hn
      · exact h
  have hb : Is (.comp .ElisionSyllabicTextGroup) b.obj := by
    clear_value a
    simp only [b]
    cases hd : l.drop a.used with
    | nil => exact ha
    | cons x xs =>
      have hx : Steady x := (steadies_cons (hd ▸ steadies_drop hl a.used)).1
      simp only
      split
      · refine is_inner ha ?_
        intro m hm n hn
        cases hm
        exact is_flag (is_inner hn fun m _ n hn => hx m.kind n hn) _
      · exact ha
  clear_value b
  cases hd : l.drop b.used with
  | nil => exact hb
  | cons x xs =>
    have hx : Steady x := (steadies_cons (hd ▸ steadies_drop hl b.used)).1
    simp only
    split
    · exact is_inner hb fun m _ n hn => hx m.kind n hn
    · exact hb

theorem is_elisionGroups : ∀ (f : Nat) {g : Node} {l : List Child}, Is (.comp .SyllabicTextGroup) g → Steadies l → Is (.comp .SyllabicTextGroup) (elisionGroups f g l).obj
  | 0, _, _, h, _ => h
  | f + 1, g, l, h, hl => by
    rw [elisionGroups]
    split
    · refine is_elisionGroups f (is_push h (by decide +kernel) ?_) (steadies_drop hl _)
      intro m hm
      have := is_newItem h hm
      cases hm
      exact is_elisionGroup this hl
    · exact h

theorem is_syllabicText {g : Node} (h : Is (.comp .SyllabicTextGroup) g) {l : List Child} (hl : Steadies l) : Is (.comp .SyllabicTextGroup) (syllabicText g l).obj := by
  simp only [syllabicText]
  refine is_readParts _ (by decide +kernel) (is_elisionGroups _ (is_readParts _ (by decide +kernel) (is_readParts _ (by decide +kernel) h hl) (steadies_drop hl _)) ?_) ?_
  · exact steadies_drop (steadies_drop hl _) _
  · exact steadies_drop (steadies_drop (steadies_drop hl _) _) _

theorem is_beatUnits {g : Node} (h : Is (.comp .BeatUnitGroup) g) {l : List Child} (hl : Steadies l) : Is (.comp .BeatUnitGroup) (readParts beatUnitParts g l).obj :=
  is_readParts _ (by decide +kernel) h hl

theorem is_perMinute {g : Node} (h : Is (.comp .PerMinuteOrBeatUnitChoice) g) {l : List Child} (hl : Steadies l) : Is (.comp .PerMinuteOrBeatUnitChoice) (perMinute l g).obj := by
  cases l with
  | nil => exact h
  | cons x xs =>
    simp only [perMinute]
    split
    · refine is_innerGot (is_choose h (by decide +kernel)) ?_
      intro m hm n hn
      cases hm
      exact is_beatUnits hn hl
    · split
      · exact is_inner (is_choose h (by decide +kernel)) fun m _ n hn => (steadies_cons hl).1 m.kind n hn
      · exact h

theorem is_beatUnitPer {g : Node} (h : Is (.comp .BeatUnitPer) g) {l : List Child} (hl : Steadies l) : Is (.comp .BeatUnitPer) (beatUnitPer l g).obj := by
  simp only [beatUnitPer]
  cases hk : g.kid? 0 with
  | none => exact h
  | some u =>
    obtain ⟨m, hm, hu⟩ := is_kid h hk
    cases hm
    refine is_innerGot (is_setKid h hk ?_) ?_
    · intro m hm
      cases hm
      exact is_beatUnits hu hl
    · intro m hm n hn
      cases hm
      exact is_perMinute hn (steadies_drop hl _)

theorem is_noteRelation {g : Node} (h : Is (.comp .NoteRelationNote) g) {l : List Child} (hl : Steadies l) (hh : headIn [nm! "metronome-note"] l = true) : Is (.comp .NoteRelationNote) (noteRelation l g).obj := by
  have hg : Is (.comp .NoteRelationNote) (g.addRun 0 (((runItems (nm! "metronome-note") l).map fun y => y.read (g.newItem 0)).map (·.1))) := by
    rw [List.map_map]
    refine is_addRun h (by decide +kernel) ?_ (is_runItems h (steadies_run hl _))
    cases l with
    | nil => cases hh
    | cons x xs =>
      have : Nat.beq x.name (nm! "metronome-note") = true := by simpa [headIn] using hh
      simp [runItems, List.takeWhile_cons, this]
  simp only [noteRelation]
  revert hg
  generalize g.addRun 0 (((runItems (nm! "metronome-note") l).map fun y => y.read (g.newItem 0)).map (·.1)) = g'
  intro hg
  cases hd : l.drop (runItems (nm! "metronome-note") l).length with
  | nil => exact hg
  | cons x xs =>
    obtain ⟨hx, hxs⟩ := steadies_cons (hd ▸ steadies_drop hl _)
    simp only
    split
    · have hr : Is (.comp .NoteRelationNote) (g'.inner 1 (fun q => q.inner 0 x.read)).1 := by
        refine is_inner hg ?_
        intro m hm n hn
        cases hm
        exact is_inner hn fun m _ n hn => hx m.kind n hn
      cases xs with
      | nil => exact hr
      | cons y ys =>
        simp only
        split
        · refine is_inner hr ?_
          intro m hm n hn
          cases hm
          exact is_inner hn fun m _ n hn => (steadies_cons hxs).1 m.kind n hn
        · exact hr
    · exact hg

theorem is_metronome {g : Node} (h : Is (.comp .BeatUnitPerOrNoteRelationNoteChoice) g) {l : List Child} (hl : Steadies l) : Is (.comp .BeatUnitPerOrNoteRelationNoteChoice) (metronome l g).obj := by
  simp only [metronome]
  split
  · refine is_innerGot (is_choose h (by decide +kernel)) ?_
    intro m hm n hn
    cases hm
    exact is_beatUnitPer hn hl
  · split
    · rename_i hh
      refine is_innerGot (is_choose h (by decide +kernel)) ?_
      intro m hm n hn
      cases hm
      exact is_noteRelation hn hl hh
    · exact h

end Mx.Content
