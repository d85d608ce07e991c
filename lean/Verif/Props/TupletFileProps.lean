import Verif.Proofs.TupletsSaid

/-! C110: the tuplets of the notes of a file. -/
namespace Mx.Props
open _root_.Spec Mx.Spec

/-- **C110 (partial)** The `<tuplet>` elements of a note that is read and written say the same, and then say it themselves, whatever the note: no tuplet is lost, added or changed, those that
start stay in their order, and so do those that end.  The full property is for all tuplets; the theorems below show what is not kept. -/
theorem C110_tuplets_partial (n : TupletNote) (xs : List TupletXml) (l : List TupletSaid) (hs : List.Forall₂ (TupletSays n) xs l) (hk : ∀ a ∈ l, TupletKept a) :
    ∃ ys m, tupletsThrough n xs = some ys ∧ (∀ n', List.Forall₂ (TupletSays n') ys m) ∧ SameTuplets m l := tuplets_said hs hk

/-- **C110 (partial)** The same however many times the file goes through the program. -/
theorem C110_for_ever_partial (n : TupletNote) (ns : List TupletNote) (xs : List TupletXml) (l : List TupletSaid) (hs : List.Forall₂ (TupletSays n) xs l) (hk : ∀ a ∈ l, TupletKept a) :
    ∃ ys m, tupletsThroughTimes (n :: ns) xs = some ys ∧ (∀ n', List.Forall₂ (TupletSays n') ys m) ∧ SameTuplets m l := by
  induction ns generalizing n xs l with
  | nil =>
    obtain ⟨ys, m, h1, h2, h3⟩ := tuplets_said hs hk
    exact ⟨ys, m, by rw [tupletsThroughTimes, h1]; rfl, h2, h3⟩
  | cons n' ns ih =>
    obtain ⟨ys, m, h1, h2, h3, h4, h5⟩ := tuplets_said hs hk
    obtain ⟨zs, o, g1, g2, g3, g4, g5⟩ := ih n' ys m (h2 n') (fun a ha => hk a (h3.mem_iff.mp ha))
    exact ⟨zs, o, by rw [tupletsThroughTimes, h1]; exact g1, g2, g3.trans h3, g4.trans h4, g5.trans h5⟩

/-- An eighth note in a triplet. -/
def tripletNote : TupletNote := { timeModification := some (chars "03", chars "2", none), type := some (chars "eighth") }

/-- A triplet without parts starts, and another tuplet ends. -/
def twoTuplets : List TupletXml :=
  [{ type := chars "start", number := some (chars "02"), bracket := some (chars "no"), showNumber := some (chars "both") }, { type := chars "stop", number := some (chars "1") }]

/-- What they say. -/
def twoTupletsSaid : List TupletSaid :=
  [{ number := some 2, start := some { actual := { number := 3, type := .eighth }, normal := { number := 2, type := .eighth }, bracket := some .no, showNumber := some .both } }, { number := some 1, start := none }]

theorem numeral_says (s : Str) (v : Int) (h : (∀ c ∈ s, Digit c) ∧ s ≠ [] ∧ v = (digitsVal s : Int)) : IntegerText s v :=
  ⟨[], [], s, [], by simp, by simp, by simp, h.2.1, h.1, .inr ⟨.inl rfl, h.2.2⟩⟩

theorem twoTuplets_say : List.Forall₂ (TupletSays tripletNote) twoTuplets twoTupletsSaid :=
  .cons ⟨rfl, .inr ⟨_, _, rfl, rfl, numeral_says _ _ (by decide)⟩, rfl, rfl, rfl,
    .inr ⟨rfl, rfl, _, _, _, rfl, numeral_says _ _ (by decide), numeral_says _ _ (by decide), rfl, rfl, .inr ⟨rfl, rfl, rfl⟩⟩⟩
    (.cons ⟨rfl, .inr ⟨_, _, rfl, rfl, numeral_says _ _ (by decide)⟩, rfl, rfl, rfl, rfl, rfl⟩ .nil)

theorem twoTuplets_kept : ∀ a ∈ twoTupletsSaid, TupletKept a := by
  intro a ha
  rcases List.mem_cons.mp ha with rfl | ha
  · exact ⟨fun n hn => by cases hn; decide, fun s hs => by cases hs; decide⟩
  · rcases List.mem_cons.mp ha with rfl | ha
    · exact ⟨fun n hn => (by cases hn; decide), fun s hs => (by cases hs)⟩
    · cases ha

example : ∃ ys m, tupletsThrough tripletNote twoTuplets = some ys ∧ (∀ n', List.Forall₂ (TupletSays n') ys m) ∧ SameTuplets m twoTupletsSaid := C110_tuplets_partial _ _ _ twoTuplets_say twoTuplets_kept

/-- The example as it is written. -/
example : tupletsThrough tripletNote twoTuplets =
    some [{ type := chars "stop", number := some (chars "1") },
          { type := chars "start", number := some (chars "2"), bracket := some (chars "no"), showNumber := some (chars "both")
            actual := some { number := some (chars "3"), type := some (chars "eighth"), dots := 0 }, normal := some { number := some (chars "2"), type := some (chars "eighth"), dots := 0 } }] := by decide +kernel

/-- **C110 is false for positions**: the place of a tuplet is lost, where it starts and where it ends. -/
theorem C110_position_lost : tupletsThrough tripletNote [{ type := chars "start", position := { placement := some (chars "above") } }] = tupletsThrough tripletNote [{ type := chars "start" }] ∧
    tupletsThrough tripletNote [{ type := chars "stop", position := { placement := some (chars "above") } }] = some [{ type := chars "stop" }] := by decide +kernel

/-- **C110 is false for all positions**: whatever the tuplets, none has a place after it is saved. -/
theorem C110_no_position (n : TupletNote) (xs ys : List TupletXml) (h : tupletsThrough n xs = some ys) : ∀ y ∈ ys, y.position = {} := by
  rw [tupletsThrough, Option.map_eq_some_iff] at h
  obtain ⟨c, _, rfl⟩ := h
  intro y hy
  rcases List.mem_append.mp hy with hy | hy <;> obtain ⟨t, _, rfl⟩ := List.mem_map.mp hy <;> rfl

/-- **C110 is false for brackets where a tuplet ends**: they are lost. -/
theorem C110_bracket_of_a_stop : tupletsThrough tripletNote [{ type := chars "stop", bracket := some (chars "yes") }] = some [{ type := chars "stop" }] := by decide +kernel

/-- **C110 is false for a tuplet with `<tuplet-actual>` only**: six notes become three, in the time of none. -/
theorem C110_only_actual : tupletsThrough tripletNote [{ type := chars "start", actual := some { number := some (chars "6"), type := some (chars "16th"), dots := 0 } }] =
    some [{ type := chars "start", actual := some { number := some (chars "3"), type := some (chars "16th"), dots := 0 }, normal := some { number := some (chars "0"), type := some (chars "eighth"), dots := 0 } }] := by
  decide +kernel

/-- **C110 is false for a tuplet with `<tuplet-normal>` only**: it becomes no notes in the time of four. -/
theorem C110_only_normal : tupletsThrough tripletNote [{ type := chars "start", normal := some { number := some (chars "4"), type := some (chars "16th"), dots := 0 } }] =
    some [{ type := chars "start", actual := some { number := some (chars "0"), type := some (chars "eighth"), dots := 0 }, normal := some { number := some (chars "4"), type := some (chars "16th"), dots := 0 } }] := by
  decide +kernel

/-- **C110 is false for a tuplet on a note without time modification**: a bracket over some notes becomes a bracket over no maximas in the time of no maximas. -/
theorem C110_no_time_modification (type : Option Str) : tupletsThrough { type := type } [{ type := chars "start", bracket := some (chars "yes") }] =
    some [{ type := chars "start", bracket := some (chars "yes"), actual := some { number := some (chars "0"), type := some (chars "maxima"), dots := 0 }, normal := some { number := some (chars "0"), type := some (chars "maxima"), dots := 0 } }] := by
  have h : tupletsThrough { type := type } [{ type := chars "start", bracket := some (chars "yes") }] = tupletsThrough {} [{ type := chars "start", bracket := some (chars "yes") }] := rfl
  rw [h]
  decide +kernel

/-- **C110 is false for parts without a type**: they become maximas. -/
theorem C110_no_type (n : TupletNote) : tupletsThrough n [{ type := chars "start", actual := some { number := some (chars "3"), type := none, dots := 0 }, normal := some { number := some (chars "2"), type := none, dots := 0 } }] =
    some [{ type := chars "start", actual := some { number := some (chars "3"), type := some (chars "maxima"), dots := 0 }, normal := some { number := some (chars "2"), type := some (chars "maxima"), dots := 0 } }] := by
  have h : ∀ x y : TupletPartXml, tupletsThrough n [{ type := chars "start", actual := some x, normal := some y }] = tupletsThrough {} [{ type := chars "start", actual := some x, normal := some y }] := fun _ _ => rfl
  rw [h]
  decide +kernel

end Mx.Props
