import Verif.Proofs.GroupsSaid
import Verif.Props.PartProps

/-!
# Property C106: the groups of parts of a file stay
-/
namespace Mx.Props
open Mx.Spec

/-- **C106 (partial)** A part list of which the groups are in order (`PartListKept`: every group has a symbol, groups that overlap have different numbers, every stop belongs to an open group) can be loaded and saved, with any sorting
routines, and it comes out with the same parts in the same order and with the same groups: first part, last part, number, name and symbol.  Missing: `C106_no_symbol`, `C106_abbreviation`, C29_same_number_swaps. -/
theorem C106_groups_partial (σ : StdSort) (τ : GroupSort) (cs : List (Convert.Entry PartGroupXml)) (h : PartListKept cs) :
    ∃ ds, partListThrough σ τ cs = some ds ∧ scorePartIds ds = scorePartIds cs ∧ (groupsSaid ds).Perm (groupsSaid cs) := by
  obtain ⟨ds, h1, _, h2, h3⟩ := part_list_through σ τ h
  exact ⟨ds, h1, h2, h3⟩

/-- **C106 (partial)** The same however many times the file goes through the program. -/
theorem C106_for_ever_partial (n : Nat) (cs ds : List (Convert.Entry PartGroupXml)) (h : PartListKept cs) (hp : PartListPasses n cs ds) :
    PartListKept ds ∧ scorePartIds ds = scorePartIds cs ∧ (groupsSaid ds).Perm (groupsSaid cs) := by
  induction hp with
  | zero cs => exact ⟨h, rfl, List.Perm.refl _⟩
  | succ σ τ h1 hs ih =>
    obtain ⟨ds, k1, k2, k3, k4⟩ := part_list_through σ τ h
    rw [k1] at h1
    cases h1
    obtain ⟨i1, i2, i3⟩ := ih k2
    exact ⟨i1, i2.trans k3, i3.trans k4⟩

/-- The start of a group. -/
def groupStart (number name : Str) (symbol : Core.GroupSymbolValue) : Convert.Entry PartGroupXml :=
  .partGroup { isStart := true, number := some number, name := some name, abbreviation := some (chars "abbr."), symbol := some symbol }

/-- The end of a group. -/
def groupStop (number : Str) : Convert.Entry PartGroupXml := .partGroup { isStart := false, number := some number }

/-- A score with woodwinds, among them two flutes, and then strings with the number that is free again; the stops of the first two groups cross. -/
def orchestra : List (Convert.Entry PartGroupXml) := [
  groupStart (chars "1") (chars "Woodwinds") .bracket, groupStart (chars "2") (chars "Flutes") .brace, .scorePart (chars "P1"), .scorePart (chars "P2"), groupStart (chars "3") (chars "Soli") .line, groupStop (chars "2"),
  .scorePart (chars "P3"), groupStop (chars "1"), groupStart (chars "1") (chars "Strings") .square, .scorePart (chars "P4"), groupStop (chars "3"), .scorePart (chars "P5"), groupStop (chars "1")]

theorem orchestra_kept : PartListKept orchestra := by
  have k1 : GroupNumberKept (some (chars "1")) := .inr ⟨1, by decide, by decide⟩
  have k2 : GroupNumberKept (some (chars "2")) := .inr ⟨2, by decide, by decide⟩
  have k3 : GroupNumberKept (some (chars "3")) := .inr ⟨3, by decide, by decide⟩
  refine ⟨by decide, ?_⟩
  refine ⟨k1, .inl ⟨rfl, by decide, by decide, k2, .inl ⟨rfl, by decide, by decide, k3, .inl ⟨rfl, by decide, by decide, k2, .inr ⟨rfl, by decide, ?_⟩⟩⟩⟩⟩
  refine ⟨k1, .inr ⟨rfl, by decide, k1, .inl ⟨rfl, by decide, by decide, k3, .inr ⟨rfl, by decide, k1, .inr ⟨rfl, by decide, trivial⟩⟩⟩⟩⟩

/-- What it says. -/
example : groupsSaid orchestra = [
    { first := 0, last := 2, number := some (chars "1"), name := chars "Woodwinds", symbol := some .bracket },
    { first := 0, last := 1, number := some (chars "2"), name := chars "Flutes", symbol := some .brace },
    { first := 2, last := 3, number := some (chars "3"), name := chars "Soli", symbol := some .line },
    { first := 3, last := 4, number := some (chars "1"), name := chars "Strings", symbol := some .square }] := by decide +kernel

example (σ : StdSort) (τ : GroupSort) : ∃ ds, partListThrough σ τ orchestra = some ds ∧ (groupsSaid ds).length = 4 := by
  obtain ⟨ds, h1, _, h3⟩ := C106_groups_partial σ τ orchestra orchestra_kept
  exact ⟨ds, h1, by rw [h3.length_eq]; decide +kernel⟩

theorem read_one (τ : GroupSort) (pl : PartList) (g : PartGroupData) (ids partwise : List Str) (i : Int)
    (h : List.foldlM (m := Except Failure) (handleEntry partwise) {} pl.children = .ok ⟨i, [], [g], ids⟩) : reconcileParts τ partwise pl = .ok ([g], ids) := by
  rw [reconcileParts, h]
  show Except.ok (τ.sort [g], _) = _
  rw [perm_single _ τ.perm]

/-- **C106** is not true of a group without symbol, which the schema allows: after loading, its bracket type is an indeterminate value, and saving looks at it (undefined behaviour). -/
theorem C106_no_symbol (σ : StdSort) (τ : GroupSort) : partListThrough σ τ [.partGroup { isStart := true, number := some (chars "1"), name := some (chars "Flutes") }, .scorePart (chars "P1"), .scorePart (chars "P2"),
    .partGroup { isStart := false, number := some (chars "1") }] = none := by
  have h := read_one τ ⟨[{ isStart := true, number := some (chars "1"), name := some (chars "Flutes") }], chars "P1", [.scorePart (chars "P2"), .partGroup { isStart := false, number := some (chars "1") }]⟩
    { first := 0, last := 1, number := 1, name := chars "Flutes" } [chars "P1", chars "P2"] [chars "P1", chars "P2"] 2 (by decide +kernel)
  have hi : scorePartIds [.partGroup { isStart := true, number := some (chars "1"), name := some (chars "Flutes") }, .scorePart (chars "P1"), .scorePart (chars "P2"),
    .partGroup { isStart := false, number := some (chars "1") }] = [chars "P1", chars "P2"] := rfl
  have hc : PartList.ofChildren [.partGroup { isStart := true, number := some (chars "1"), name := some (chars "Flutes") }, .scorePart (chars "P1"), .scorePart (chars "P2"),
    .partGroup { isStart := false, number := some (chars "1") }] = some ⟨[{ isStart := true, number := some (chars "1"), name := some (chars "Flutes") }], chars "P1", [.scorePart (chars "P2"), .partGroup { isStart := false, number := some (chars "1") }]⟩ := rfl
  rw [partListThrough, hi, hc, Option.bind_some, h]
  show (writePartList σ [{ first := 0, last := 1, number := 1, name := chars "Flutes" }] [chars "P1", chars "P2"]).map PartList.children = none
  rw [C29_default_group_undefined σ _ _ _ List.mem_cons_self rfl (by decide) (by decide)]
  rfl

/-- The abbreviations that a part list has. -/
def abbreviations (cs : List (Convert.Entry PartGroupXml)) : List Str :=
  cs.filterMap (fun c => match c with | .partGroup g => g.abbreviation | .scorePart _ => none)

/-- **C106** is not true of the abbreviations: whatever comes out, there is none in it. -/
theorem C106_abbreviation (σ : StdSort) (τ : GroupSort) : ∃ ds, partListThrough σ τ orchestra = some ds ∧ abbreviations ds = [] ∧ (abbreviations orchestra).length = 4 := by
  obtain ⟨pl, h1, h2⟩ := ofChildren_some orchestra_kept.parts
  obtain ⟨ds, k1, _⟩ := part_list_through σ τ orchestra_kept
  refine ⟨ds, k1, ?_, by decide⟩
  rw [partListThrough, h1, Option.bind_some] at k1
  obtain ⟨r, _, k2⟩ := Option.bind_eq_some_iff.mp k1
  obtain ⟨pl', k3, rfl⟩ := Option.map_eq_some_iff.mp k2
  have none_of : ∀ (a b : List (Convert.Entry PartGroupXml)), abbreviations a = [] → abbreviations b = [] → abbreviations (a ++ b) = [] := by
    intro a b ha hb
    unfold abbreviations at *
    rw [List.filterMap_append, ha, hb]
    rfl
  have starts_none : ∀ (l : List PartGroupData) (xs : List PartGroupXml), l.mapM makePartGroupStart = some xs → abbreviations (xs.map .partGroup) = [] := by
    intro l
    induction l with
    | nil => intro xs h; cases h; rfl
    | cons g l ih =>
      intro xs h
      rw [List.mapM_cons] at h
      obtain ⟨x, hx, h⟩ := Option.bind_eq_some_iff.mp h
      obtain ⟨ys, hy, h⟩ := Option.bind_eq_some_iff.mp h
      cases h
      obtain ⟨b, _, rfl⟩ := Option.map_eq_some_iff.mp hx
      exact ih ys hy
  have stops_none : ∀ (l : List PartGroupData), abbreviations (l.map (fun g => .partGroup (makePartGroupStop g))) = [] := by
    intro l
    induction l with
    | nil => rfl
    | cons g l ih => exact ih
  have key : ∀ (ids : List Str) (i : Nat) (a b : PartList), abbreviations a.children = [] → writeParts σ r.1 i ids a = some b → abbreviations b.children = [] := by
    intro ids
    induction ids with
    | nil => intro i a b ha h; cases h; exact ha
    | cons id ids ih =>
      intro i a b ha h
      rw [writeParts] at h
      obtain ⟨c, hc, h⟩ := Option.bind_eq_some_iff.mp h
      refine ih (i + 1) c b ?_ h
      rw [addScorePart] at hc
      obtain ⟨starts, hs, rfl⟩ := Option.map_eq_some_iff.mp hc
      have hs := starts_none _ _ hs
      have hg : abbreviations (a.groups.map .partGroup) = [] ∧ abbreviations a.entries = [] := by
        unfold PartList.children abbreviations at ha
        rw [List.filterMap_append, List.filterMap_append] at ha
        obtain ⟨h5, h6⟩ := List.append_eq_nil_iff.mp ha
        exact ⟨(List.append_eq_nil_iff.mp h5).1, h6⟩
      have hst := stops_none (σ.sort (fun g => - g.number) (groupsStopping r.1 i))
      by_cases hi : i = 0
      · rw [if_pos hi]
        show abbreviations ((a.groups ++ starts).map .partGroup ++ [.scorePart id] ++ (a.entries ++ stopEntries σ r.1 i)) = []
        rw [List.map_append]
        exact none_of _ _ (none_of _ _ (none_of _ _ hg.1 hs) rfl) (none_of _ _ hg.2 hst)
      · rw [if_neg hi]
        show abbreviations (a.groups.map .partGroup ++ [.scorePart a.scorePart] ++ (a.entries ++ starts.map .partGroup ++ [.scorePart id] ++ stopEntries σ r.1 i)) = []
        exact none_of _ _ (none_of _ _ hg.1 rfl) (none_of _ _ (none_of _ _ (none_of _ _ hg.2 hs) rfl) hst)
  exact key r.2 0 .new pl' rfl k3

end Mx.Props
