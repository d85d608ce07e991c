import Verif.Proofs.Blocked
import Verif.Props.LoadedProps

/-
C69: elements of unknown names.
-/
open Mx.Spec Mx.Content
namespace Mx.Props

/-! ## C69 -/

/-- The objects of twelve classes complain about every element that has, anywhere among its children and besides whatever else, a child of a name that the schema does not allow there.
(`Notations` has one more name, see `C69_misspelt`.) -/
theorem C69_refused {c : Cls} (hc : c ∈ complaining) {x y : Xml} (hy : y ∈ childrenOf x) (hn : xmlName y ∉ allowedNames c) (ho : ¬ (c = .Notations ∧ xmlName y = nm! "other-notations")) :
    Refused c x :=
  blocked_hopeless (.here hc hy hn ho) _ (is_make_comp c)

/-- Such a child within a note, its notations, their articulations or technical marks, or directly within a part, anywhere in a partwise document, makes it impossible to load the document. -/
theorem C69_partwise {data : Str} {kids : List Xml} (h : Blocked .ScorePartwise (.elem (nm! "score-partwise") data kids)) : loadRoot (.elem (nm! "score-partwise") data kids) = none := by
  have h1 := blocked_hopeless h _ (is_make_comp .ScorePartwise)
  simp only [loadRoot, Doc.fromRoot]
  rw [if_pos (show Nat.beq (nm! "score-partwise") (nm! "score-partwise") = true from by decide +kernel), h1]

/-- The same for timewise documents. -/
theorem C69_timewise {data : Str} {kids : List Xml} (h : Blocked .ScoreTimewise (.elem (nm! "score-timewise") data kids)) : loadRoot (.elem (nm! "score-timewise") data kids) = none := by
  have h1 := blocked_hopeless h _ (is_make_comp .ScoreTimewise)
  simp only [loadRoot, Doc.fromRoot]
  rw [if_neg (show ¬ Nat.beq (nm! "score-timewise") (nm! "score-partwise") = true from by decide +kernel),
    if_pos (show Nat.beq (nm! "score-timewise") (nm! "score-timewise") = true from by decide +kernel), h1]

/-- For the objects of 33 classes the children of such names do not exist: the object that results, and whether there is a complaint, are the same as without them. -/
theorem C69_ignored {c : Cls} (hc : c ∈ ignoring) (x : Xml) :
    (x.child prog).read (make (.comp c)) = ((onlyNamed (allowedNames c) x).child prog).read (make (.comp c)) := by
  cases x with
  | elem name data kids =>
    have h1 : ∀ c ∈ ignoring, lenientClassB c = true := by decide +kernel
    have h2 : (ignoring.all fun c => (readerNames c).all (knownB (allowedNames c))) = true := by decide +kernel
    exact lenient_ignores (h1 c hc) name data kids (List.all_eq_true.mp h2 c hc)

/-- So what is written is the same, too. -/
theorem C69_ignored_written {c : Cls} (hc : c ∈ ignoring) (x : Xml) : readAndWrite c x = readAndWrite c (onlyNamed (allowedNames c) x) := by
  unfold readAndWrite
  rw [C69_ignored hc x]

/-- Where the schema says `other-notation`, the reader looks for `other-notations`: the one is refused, the other taken without a complaint. -/
theorem C69_misspelt : Refused .Notations (el (nm! "notations") [el (nm! "other-notation")]) ∧ ¬ Refused .Notations (el (nm! "notations") [el (nm! "other-notations")]) ∧
    nm! "other-notation" ∈ allowedNames .Notations ∧ nm! "other-notations" ∉ allowedNames .Notations := by
  refine ⟨rewrite_none (by decide +kernel), ?_, by decide +kernel, by decide +kernel⟩
  intro h
  have := rewrite_some (c := .Notations) (x := el (nm! "notations") [el (nm! "other-notations")]) (by decide +kernel)
  rw [Refused] at h
  rw [h] at this
  cases this

/-- Neither of the two holds for all classes. A run of elements is torn apart by a child of an unknown name: there is no complaint, but what was read before it is lost. -/
theorem C69_torn :
    ¬ Refused .Appearance (el (nm! "appearance") [el (nm! "line-width") [] (chars "1"), el (nm! "no-such-name"), el (nm! "line-width") [] (chars "2")]) ∧
    flat (readAndWrite .Appearance (el (nm! "appearance") [el (nm! "line-width") [] (chars "1"), el (nm! "no-such-name"), el (nm! "line-width") [] (chars "2")])) =
      flat (el (nm! "appearance") [el (nm! "line-width") [] (chars "2")]) ∧
    flat (readAndWrite .Appearance (el (nm! "appearance") [el (nm! "line-width") [] (chars "1"), el (nm! "line-width") [] (chars "2")])) =
      flat (el (nm! "appearance") [el (nm! "line-width") [] (chars "1"), el (nm! "line-width") [] (chars "2")]) := by
  refine ⟨?_, by decide +kernel, by decide +kernel⟩
  intro h
  have := rewrite_some (c := .Appearance) (x := el (nm! "appearance") [el (nm! "line-width") [] (chars "1"), el (nm! "no-such-name"), el (nm! "line-width") [] (chars "2")]) (by decide +kernel)
  rw [Refused] at h
  rw [h] at this
  cases this

/-- A note with an element of a later version of MusicXML. -/
example : Refused .Note (el (nm! "note") [el (nm! "rest"), el (nm! "duration"), el (nm! "voice"), el (nm! "listen")]) :=
  C69_refused (by decide) (y := el (nm! "listen")) (.tail _ (.tail _ (.tail _ (.head _)))) (by decide +kernel) (by simp)

/-- Without it the note is read. -/
example : ¬ Refused .Note (el (nm! "note") [el (nm! "rest"), el (nm! "duration"), el (nm! "voice")]) := by
  intro h
  have := rewrite_some (c := .Note) (x := el (nm! "note") [el (nm! "rest"), el (nm! "duration"), el (nm! "voice")]) (by decide +kernel)
  rw [Refused] at h
  rw [h] at this
  cases this

/-- A note with a technical mark of a later version, and a measure with this note among others. -/
def newerNotations : Xml := el (nm! "notations") [el (nm! "technical") [el (nm! "brass-bend")]]
def newerNote : Xml := el (nm! "note") [el (nm! "rest"), el (nm! "duration"), newerNotations]
def newerMeasure (before after : List Xml) : Xml := el (nm! "measure") (before ++ newerNote :: after)

/-- No document with it is loaded. -/
example (before after : List Xml) : loadRoot (el (nm! "score-partwise") [el (nm! "part-list"), el (nm! "part") [newerMeasure before after]]) = none := by
  refine C69_partwise (.inside (c' := .PartwisePart) (y := el (nm! "part") [newerMeasure before after]) ?_ (.tail _ (.head _)) ?_)
  · exact .head _
  refine .inside (c' := .PartwiseMeasure) (y := newerMeasure before after) (.tail _ (.head _)) (.head _) ?_
  refine .inside (c' := .Note) (y := newerNote) (.tail _ (.tail _ (.head _))) (List.mem_append_right _ (.head _)) ?_
  refine .inside (c' := .Notations) (y := newerNotations) (by decide +kernel) (.tail _ (.tail _ (.head _))) ?_
  refine .inside (c' := .Technical) (y := el (nm! "technical") [el (nm! "brass-bend")]) (by decide +kernel) (.head _) ?_
  exact .here (y := el (nm! "brass-bend")) (by decide) (.head _) (by decide +kernel) (by simp)

/-- In a measure it would be passed over. -/
example : flat (readAndWrite .PartwiseMeasure (el (nm! "measure") [el (nm! "listening"), el (nm! "forward") [el (nm! "duration") [] (chars "3")]])) =
    flat (el (nm! "measure") [el (nm! "forward") [el (nm! "duration") [] (chars "3")]]) := by
  rw [C69_ignored_written (by decide)]
  decide +kernel

end Mx.Props
