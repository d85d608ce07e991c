import Verif.Model.TupletsThrough
import Verif.Spec.TupletsSaid
import Verif.Proofs.CurvesSaid

/-! Lemmas for `Verif/Props/TupletFileProps.lean`. -/
namespace Mx
open _root_.Spec Mx.Spec

theorem notes_number {t : Str} {v : Int} (h : IntegerText t v) (hv : 0 ≤ v ∧ v ≤ 2147483647) : parseBounded .NonNegativeInteger t = v :=
  parseBounded_numeral h ⟨le_trans (by decide) hv.1, hv.2⟩ ⟨hv.1, hv.2⟩

/-- The tuplet of the API; the dots may be absent. -/
def tupletOf (a : TupletSaid) (s : TupletStartSaid) (d e : Int) : TupletStart :=
  { numberLevel := a.number.getD (-1)
    actualNumber := s.actual.number, actualDurationName := MapName.durationMap.toApi s.actual.type, actualDots := d
    normalNumber := s.normal.number, normalDurationName := MapName.durationMap.toApi s.normal.type, normalDots := e
    showActualNumber := (readShowNumber (s.showNumber.map StringEnum.toStr)).1, showNormalNumber := (readShowNumber (s.showNumber.map StringEnum.toStr)).2
    bracket := ((s.bracket.map StringEnum.toStr).map (fun t => (MapName.boolMap.toApi (parseEnum t : Core.YesNo) : Api.Bool))).getD .unspecified }

theorem noteType_parsed (t : Core.NoteTypeValue) : (parseEnum (StringEnum.toStr t) : Core.NoteTypeValue) = t := by cases t <;> rfl

theorem noteType_there (t : Core.NoteTypeValue) : (MapName.durationMap.toCore (MapName.durationMap.toApi t : Api.DurationName) : Core.NoteTypeValue) = t := by cases t <;> rfl

theorem dots_read (d : Nat) : (readTupletDots d).toNat = d := by
  unfold readTupletDots
  split
  · rfl
  · rename_i h
    have : d = 0 := by omega
    subst this
    rfl

theorem part_read (old : Int) {p : TupletPartXml} {a : NotesSaid} (h : NotesSay p a) (hv : 0 ≤ a.number ∧ a.number ≤ 2147483647) :
    readTupletPart old p = (a.number, MapName.durationMap.toApi a.type, readTupletDots a.dots) := by
  obtain ⟨⟨t, h1, h2⟩, h3, h4⟩ := h
  rw [readTupletPart, h1, h3, h4]
  simp only [Option.map_some, Option.getD_some, notes_number h2 hv, noteType_parsed]

theorem no_position : readPosition tupletMembers {} = some {} := rfl

theorem tupletStart_read {n : TupletNote} {x : TupletXml} {a : TupletSaid} {s : TupletStartSaid} (ha : a.start = some s) (h : TupletSays n x a) (hk : TupletKept a) :
    ∃ d e : Int, readTuplet n x = some (.inl (tupletOf a s d e)) ∧ d.toNat = s.actual.dots ∧ e.toNat = s.normal.dots := by
  obtain ⟨h1, h2, h3⟩ := h
  rw [ha] at h3
  obtain ⟨h3, h4, h5, h6⟩ := h3
  obtain ⟨k1, k2⟩ := hk.notes s ha
  have hn := curveNumber_read h2 hk.number
  rcases h6 with ⟨p, q, e1, e2, e3, e4⟩ | ⟨e1, e2, m1, m2, g, e3, e4, e5, e6, e7, e8⟩
  · refine ⟨readTupletDots s.actual.dots, readTupletDots s.normal.dots, ?_, dots_read _, dots_read _⟩
    rw [readTuplet, h1, no_position, h3, e1, e2, h4, h5, hn]
    simp only [part_read _ e3 k1, part_read _ e4 k2]
    rfl
  · rcases e8 with rfl | ⟨rfl, e8, e9⟩
    · refine ⟨s.actual.dots, s.normal.dots, ?_, rfl, rfl⟩
      rw [readTuplet, h1, no_position, h3, e1, e2, h4, h5, hn]
      simp only [guessNormal, guessActual, guessName, e3, Option.map_some, Option.getD_some, notes_number e4 k1, notes_number e5 k2, noteType_parsed, tupletOf, e6, e7]
      rfl
    · refine ⟨-1, -1, ?_, by rw [e9]; rfl, by rw [e7, e9]; rfl⟩
      rw [readTuplet, h1, no_position, h3, e1, e2, h4, h5, hn]
      simp only [guessNormal, guessActual, guessName, e3, e8, Option.map_some, Option.getD_some, notes_number e4 k1, notes_number e5 k2, noteType_parsed, tupletOf, e6]
      rfl

theorem tupletStop_read {n : TupletNote} {x : TupletXml} {a : TupletSaid} (ha : a.start = none) (h : TupletSays n x a) (hk : TupletKept a) :
    readTuplet n x = some (.inr { numberLevel := a.number.getD (-1) }) := by
  obtain ⟨h1, h2, h3⟩ := h
  rw [ha] at h3
  rw [readTuplet, h1, no_position, h3.1, curveNumber_read h2 hk.number]
  rfl

theorem notes_written {a : NotesSaid} (hv : 0 ≤ a.number ∧ a.number ≤ 2147483647) {d : Int} (hd : d.toNat = a.dots) : NotesSay (writeTupletPart a.number (MapName.durationMap.toApi a.type) d) a :=
  ⟨⟨_, rfl, bounded_says (k := .NonNegativeInteger) ⟨hv.1, hv.2⟩⟩, by rw [writeTupletPart]; simp only [noteType_there], hd⟩

theorem tupletStart_written (n : TupletNote) {a : TupletSaid} {s : TupletStartSaid} (ha : a.start = some s) (hk : TupletKept a) {d e : Int} (hd : d.toNat = s.actual.dots) (he : e.toNat = s.normal.dots) :
    TupletSays n (writeTupletStart (tupletOf a s d e)) a := by
  obtain ⟨k1, k2⟩ := hk.notes s ha
  refine ⟨rfl, curveNumber_written hk.number, ?_⟩
  rw [ha]
  refine ⟨rfl, ?_, ?_, .inl ⟨_, _, rfl, rfl, notes_written k1 hd, notes_written k2 he⟩⟩
  · rw [writeTupletStart]
    simp only [tupletOf]
    obtain ⟨_, _, b, _⟩ := s
    clear hd he k1 k2 ha
    rcases b with _ | _ | _ <;> rfl
  · rw [writeTupletStart]
    simp only [tupletOf]
    obtain ⟨_, _, _, b⟩ := s
    clear hd he k1 k2 ha
    rcases b with _ | _ | _ | _ <;> rfl

theorem tupletStop_written (n : TupletNote) {a : TupletSaid} (ha : a.start = none) (hk : TupletKept a) : TupletSays n (writeTupletStop { numberLevel := a.number.getD (-1) }) a := by
  refine ⟨rfl, curveNumber_written hk.number, ?_⟩
  rw [ha]
  exact ⟨rfl, rfl, rfl, rfl, rfl⟩

/-- The tuplets of the API that are written as what was said. -/
structure TupletsOf (c : NoteTuplets) (l : List TupletSaid) : Prop where
  starts : ∀ n, List.Forall₂ (TupletSays n) (c.starts.map writeTupletStart) (l.filter (·.start.isSome))
  stops : ∀ n, List.Forall₂ (TupletSays n) (c.stops.map writeTupletStop) (l.filter (·.start.isNone))

theorem tuplets_read {n : TupletNote} {xs : List TupletXml} {l : List TupletSaid} (h : List.Forall₂ (TupletSays n) xs l) : ∀ (c : NoteTuplets) (done : List TupletSaid), TupletsOf c done → (∀ a ∈ l, TupletKept a) →
    ∃ c', xs.foldlM (readNoteTuplet n) c = some c' ∧ TupletsOf c' (done ++ l) := by
  induction h with
  | nil => intro c done hc _; exact ⟨c, rfl, by rw [List.append_nil]; exact hc⟩
  | cons h _ ih =>
    rename_i x a xs l _
    intro c done hc hk
    have ka := hk a List.mem_cons_self
    have hl : ∀ b ∈ l, TupletKept b := fun b hb => hk b (List.mem_cons_of_mem _ hb)
    rw [List.foldlM_cons, readNoteTuplet]
    cases ha : a.start with
    | none =>
      rw [tupletStop_read ha h ka]
      simp only [Option.map_some, Option.bind_eq_bind, Option.bind_some]
      obtain ⟨c', h1, h2⟩ := ih { c with stops := c.stops ++ [{ numberLevel := a.number.getD (-1) }] } (done ++ [a]) ⟨fun m => by
          rw [List.filter_append, List.filter_cons_of_neg (by rw [ha]; simp), List.filter_nil, List.append_nil]; exact hc.starts m, fun m => by
          rw [List.filter_append, List.filter_cons_of_pos (by rw [ha]; rfl), List.filter_nil, List.map_append]
          exact List.rel_append (hc.stops m) (.cons (tupletStop_written m ha ka) .nil)⟩ hl
      exact ⟨c', h1, by rwa [List.append_assoc] at h2⟩
    | some s =>
      obtain ⟨d, e, h1, h2, h3⟩ := tupletStart_read ha h ka
      rw [h1]
      simp only [Option.map_some, Option.bind_eq_bind, Option.bind_some]
      obtain ⟨c', h1, h2⟩ := ih { c with starts := c.starts ++ [tupletOf a s d e] } (done ++ [a]) ⟨fun m => by
          rw [List.filter_append, List.filter_cons_of_pos (by rw [ha]; rfl), List.filter_nil, List.map_append]
          exact List.rel_append (hc.starts m) (.cons (tupletStart_written m ha ka h2 h3) .nil), fun m => by
          rw [List.filter_append, List.filter_cons_of_neg (by rw [ha]; simp), List.filter_nil, List.append_nil]; exact hc.stops m⟩ hl
      exact ⟨c', h1, by rwa [List.append_assoc] at h2⟩

theorem same_tuplets (l : List TupletSaid) : SameTuplets (l.filter (·.start.isNone) ++ l.filter (·.start.isSome)) l := by
  refine ⟨?_, ?_, ?_⟩
  · have h := List.filter_append_perm (fun a : TupletSaid => a.start.isNone) l
    rwa [show (fun a : TupletSaid => !a.start.isNone) = (fun a => a.start.isSome) from funext fun a => by cases a.start <;> rfl] at h
  · rw [List.filter_append, List.filter_filter, List.filter_filter]
    have h : ∀ a : TupletSaid, (a.start.isSome && a.start.isNone) = false := fun a => by cases a.start <;> rfl
    simp only [h, Bool.and_self, List.filter_false, List.nil_append]
  · rw [List.filter_append, List.filter_filter, List.filter_filter]
    have h : ∀ a : TupletSaid, (a.start.isNone && a.start.isSome) = false := fun a => by cases a.start <;> rfl
    simp only [h, Bool.and_self, List.filter_false, List.append_nil]

theorem tuplets_said {n : TupletNote} {xs : List TupletXml} {l : List TupletSaid} (h : List.Forall₂ (TupletSays n) xs l) (hk : ∀ a ∈ l, TupletKept a) :
    ∃ ys m, tupletsThrough n xs = some ys ∧ (∀ n', List.Forall₂ (TupletSays n') ys m) ∧ SameTuplets m l := by
  obtain ⟨c, h1, h2⟩ := tuplets_read h {} [] ⟨fun _ => .nil, fun _ => .nil⟩ hk
  exact ⟨_, _, by rw [tupletsThrough, readNoteTuplets, h1]; rfl, fun m => List.rel_append (h2.stops m) (h2.starts m), same_tuplets l⟩

end Mx
