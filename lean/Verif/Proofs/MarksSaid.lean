import Verif.Model.MarksThrough
import Verif.Spec.MarksSaid
import Verif.Proofs.Marks
import Verif.Proofs.CurvesSaid

/-! Lemmas for `Verif/Props/MarkFileProps.lean`. -/
namespace Mx
open _root_.Spec Mx.Spec

/-! ### Places -/

def placementOf (a : Option Core.AboveBelow) : Api.Placement := (a.map (fun c => (MapName.placementMap.toApi c : Api.Placement))).getD .unspecified
def halignOf (a : Option Core.LeftCenterRight) : Api.HorizontalAlignment := (a.map (fun c => (MapName.halignMap.toApi c : Api.HorizontalAlignment))).getD .unspecified
def valignOf (a : Option Core.Valign) : Api.VerticalAlignment := (a.map (fun c => (MapName.valignMap.toApi c : Api.VerticalAlignment))).getD .unspecified

def placeOf (a : MarkPlaceSaid) : PositionData :=
  { defaultX := numOf a.defaultX, defaultY := numOf a.defaultY, relativeX := numOf a.relativeX, relativeY := numOf a.relativeY
    placement := placementOf a.placement, horizontalAlignment := halignOf a.halign, verticalAlignment := valignOf a.valign }

/-- Elements with all lengths and a placement, and with alignments where they are said. -/
structure Members (m : PositionMembers) (a : MarkPlaceSaid) : Prop where
  default : m.defaultXY = true
  relative : m.relativeXY = true
  placement : m.placement = true
  halign : m.halign = true ∨ a.halign = none
  valign : m.valign = true ∨ a.valign = none

theorem place_read {m : PositionMembers} {x : PositionXml} {a : MarkPlaceSaid} (hm : Members m a) (h : MarkPlaceSays x a)
    (hf : ∀ v ∈ [a.defaultX, a.defaultY, a.relativeX, a.relativeY], ∀ n ∈ v, LengthFits n) : readPosition m x = some (placeOf a) := by
  obtain ⟨m1, m2, m3, m4, m5⟩ := hm
  have e1 : (if m.halign then x.halign else none) = a.halign.map StringEnum.toStr := by
    rcases m4 with e | e
    · rw [e]; exact h.halign
    · rw [h.halign, e]; split <;> rfl
  have e2 : (if m.valign then x.valign else none) = a.valign.map StringEnum.toStr := by
    rcases m5 with e | e
    · rw [e]; exact h.valign
    · rw [h.valign, e]; split <;> rfl
  rw [readPosition, e1, e2]
  simp only [m1, m2, m3, if_true]
  rw [fitting_read tenths_any h.defaultX (hf _ (by simp)), fitting_read tenths_any h.defaultY (hf _ (by simp)), fitting_read tenths_any h.relativeX (hf _ (by simp)),
    fitting_read tenths_any h.relativeY (hf _ (by simp)), h.placement]
  have p1 : ((a.placement.map StringEnum.toStr).map (fun t => (MapName.placementMap.toApi (parseEnum t : Core.AboveBelow) : Api.Placement))).getD .unspecified = placementOf a.placement := by
    rcases a.placement with _ | _ | _ <;> rfl
  have p2 : ((a.halign.map StringEnum.toStr).map (fun t => (MapName.halignMap.toApi (parseEnum t : Core.LeftCenterRight) : Api.HorizontalAlignment))).getD .unspecified = halignOf a.halign := by
    rcases a.halign with _ | _ | _ | _ <;> rfl
  have p3 : ((a.valign.map StringEnum.toStr).map (fun t => (MapName.valignMap.toApi (parseEnum t : Core.Valign) : Api.VerticalAlignment))).getD .unspecified = valignOf a.valign := by
    rcases a.valign with _ | _ | _ | _ | _ <;> rfl
  rw [p1, p2, p3]
  rfl

theorem place_written {m : PositionMembers} {a : MarkPlaceSaid} (hm : Members m a)
    (hf : ∀ v ∈ [a.defaultX, a.defaultY, a.relativeX, a.relativeY], ∀ n ∈ v, LengthFits n) : ∃ x, writePosition m (placeOf a) = some x ∧ MarkPlaceSays x a := by
  obtain ⟨m1, m2, m3, m4, m5⟩ := hm
  obtain ⟨x1, a1, b1⟩ := fitting_written tenths_any (hf a.defaultX (by simp))
  obtain ⟨x2, a2, b2⟩ := fitting_written tenths_any (hf a.defaultY (by simp))
  obtain ⟨x3, a3, b3⟩ := fitting_written tenths_any (hf a.relativeX (by simp))
  obtain ⟨x4, a4, b4⟩ := fitting_written tenths_any (hf a.relativeY (by simp))
  have p1 : (if m.placement = true ∧ placementOf a.placement ≠ .unspecified then some (StringEnum.toStr (MapName.placementMap.toCore (placementOf a.placement) : Core.AboveBelow)) else none) = a.placement.map StringEnum.toStr := by
    rw [m3]
    generalize a.placement = b
    rcases b with _ | _ | _ <;> rfl
  have p2 : (if m.halign = true ∧ halignOf a.halign ≠ .unspecified then some (StringEnum.toStr (MapName.halignMap.toCore (halignOf a.halign) : Core.LeftCenterRight)) else none) = a.halign.map StringEnum.toStr := by
    rcases m4 with e | e
    · rw [e]; generalize a.halign = b; rcases b with _ | _ | _ | _ <;> rfl
    · rw [e]; rw [if_neg (fun h => h.2 rfl)]; rfl
  have p3 : (if m.valign = true ∧ valignOf a.valign ≠ .unspecified then some (StringEnum.toStr (MapName.valignMap.toCore (valignOf a.valign) : Core.Valign)) else none) = a.valign.map StringEnum.toStr := by
    rcases m5 with e | e
    · rw [e]; generalize a.valign = b; rcases b with _ | _ | _ | _ | _ <;> rfl
    · rw [e]; rw [if_neg (fun h => h.2 rfl)]; rfl
  refine ⟨{ defaultX := x1, defaultY := x2, relativeX := x3, relativeY := x4, halign := a.halign.map StringEnum.toStr, valign := a.valign.map StringEnum.toStr, placement := a.placement.map StringEnum.toStr }, ?_,
    ⟨b1, b2, b3, b4, rfl, rfl, rfl⟩⟩
  rw [writePosition]
  simp only [m1, m2, ifMember, if_true]
  show (writeNum .TenthsValue (numOf a.defaultX)).bind _ = _
  rw [a1]
  show (writeNum .TenthsValue (numOf a.defaultY)).bind _ = _
  rw [a2]
  show (writeNum .TenthsValue (numOf a.relativeX)).bind _ = _
  rw [a3]
  show (writeNum .TenthsValue (numOf a.relativeY)).bind _ = _
  rw [a4, ← p1, ← p2, ← p3]
  rfl

theorem no_print (m : PrintMembers) : readPrint m {} = some {} := by
  obtain ⟨a, b, c, d⟩ := m
  cases a <;> cases b <;> cases c <;> cases d <;> rfl

theorem mark_members {a : MarkSaid} (hk : MarkKept a) (h : a.kind.isDynamic = false) : Members markMembers a.place :=
  ⟨rfl, rfl, rfl, .inr (hk.aligned h).1, .inr (hk.aligned h).2⟩

theorem dynamics_members (a : MarkPlaceSaid) : Members dynamicsMembers a := ⟨rfl, rfl, rfl, .inl rfl, .inl rfl⟩

/-! ### The marks of the API -/

def markTypeOf (a : MarkSaid) : Api.MarkType :=
  match a.kind with
  | .articulation c => if c = .otherArticulation then customOr a.text (MapName.articulationsMap.toApi c) else MapName.articulationsMap.toApi c
  | .ornament c => MapName.ornamentsMap.toApi c
  | .tremolo n => tremoloType n
  | .technical c => MapName.technicalMarkMap.toApi c
  | .dynamic c => MapName.dynamicsMap.toApi c
  | .fermata s d => fermataType s d

def markNameOf (a : MarkSaid) : Str :=
  match a.kind with
  | .articulation c => if c = .otherArticulation then a.text else articulationName c
  | .ornament c => if c = .otherOrnament then a.text else ornamentName c
  | .tremolo _ => ornamentName .tremolo
  | .technical c => if c = .otherTechnical then a.text else technicalName c
  | .dynamic c => if c = .otherDynamics then a.text else StringEnum.toStr c
  | .fermata s d => defaultMarkName (fermataType s d)

def markOf (tick : Int) (a : MarkSaid) : MarkData := { markType := markTypeOf a, name := markNameOf a, tickTimePosition := tick, positionData := placeOf a.place }

theorem articulation_read (tick : Int) {x : MarkXml Core.ArticulationsChoice} {a : MarkSaid} (h : ArticulationSays x a) (hk : MarkKept a) : readArticulation tick x = some (markOf tick a) := by
  obtain ⟨h1, h2, h3, h4⟩ := h
  rw [readArticulation, place_read (mark_members hk (by rw [h3]; rfl)) h2 hk.lengths, h1, no_print]
  simp only [Option.bind_eq_bind, Option.bind_some, markOf, markTypeOf, markNameOf, h3, h4]
  rfl

theorem ornament_read (tick : Int) {x : MarkXml Core.OrnamentsChoice} {a : MarkSaid} (h : OrnamentSays x a) (hk : MarkKept a) : readOrnament tick x = some (some (markOf tick a)) := by
  obtain ⟨h1, h2, h3⟩ := h
  rcases h3 with ⟨h3, h4, h5⟩ | ⟨h3, h4, h5, n, h6, h7⟩
  · have hn : ¬ isOtherTremolo x = true := by rw [isOtherTremolo, decide_eq_false h3]; simp
    have hk' := hk.kind
    rw [h4] at hk'
    rw [readOrnament, if_neg hn, place_read (mark_members hk (by rw [h4]; rfl)) h2 hk.lengths, h1, no_print]
    simp only [Option.bind_eq_bind, Option.bind_some, markOf, markTypeOf, markNameOf, h4, if_neg h3]
    by_cases ho : x.choice = .otherOrnament
    · rw [if_pos ho, if_pos ho, if_neg (h5 ▸ hk'.2 ho), h5]; rfl
    · rw [if_neg ho, if_neg ho]; rfl
  · have hn : ¬ isOtherTremolo x = true := by
      rw [isOtherTremolo]
      rcases h4 with h4 | h4 <;> rw [h4] <;> simp <;> intro _ <;> rfl
    have hk' := hk.kind
    rw [h6] at hk'
    have hp : parseBounded .TremoloMarks x.text = n := parseBounded_numeral h7 ⟨le_trans (by decide) hk'.1, le_trans hk'.2 (by decide)⟩ ⟨le_trans (by decide) hk'.1, le_trans hk'.2 (by decide)⟩
    rw [readOrnament, if_neg hn, place_read (mark_members hk (by rw [h6]; rfl)) h2 hk.lengths, h1, no_print]
    simp only [Option.bind_eq_bind, Option.bind_some, markOf, markTypeOf, markNameOf, h6, h3, hp]
    rfl

theorem technicalMark_read (tick : Int) {x : MarkXml Core.TechnicalChoice} {a : MarkSaid} (h : TechnicalSays x a) (hk : MarkKept a) : readTechnical tick x = some (some (markOf tick a)) := by
  obtain ⟨h1, h2, h3, h4⟩ := h
  have hk' := hk.kind
  rw [h3] at hk'
  have hn : ¬ ((MapName.technicalMarkMap.toApi x.choice : Api.MarkType) = .unspecified ∧ x.choice ≠ .otherTechnical) := by
    have : ∀ c ∈ keptTechnical, ¬ ((MapName.technicalMarkMap.toApi c : Api.MarkType) = .unspecified ∧ c ≠ .otherTechnical) := by decide +kernel
    exact this _ hk'.1
  rw [readTechnical, if_neg hn, place_read (mark_members hk (by rw [h3]; rfl)) h2 hk.lengths, h1, no_print]
  simp only [Option.bind_eq_bind, Option.bind_some, markOf, markTypeOf, markNameOf, h3, h4]
  rfl

theorem other_dynamic (v : OpenValue Core.DynamicsEnum) {s : Str} (h : ∀ d : Core.DynamicsEnum, s ≠ StringEnum.toStr d) : v.setText s = { v.setEnum .otherDynamics with custom := s } := by
  have : (tryParse s : Option Core.DynamicsEnum) = none := by
    cases e : (tryParse s : Option Core.DynamicsEnum) with
    | none => rfl
    | some d => exact absurd ((roundTrips_DynamicsEnum d s).mp e) (h d)
  rw [OpenValue.setText]
  simp only [this]
  rfl

theorem dynamics_read (tick : Int) {x : DynamicsXml} {a : MarkSaid} (h : DynamicMarkSays x a) (hk : MarkKept a) : readDynamics tick x = some (markOf tick a) := by
  obtain ⟨h1, h2, ⟨c, h3, h5⟩, h4⟩ := h
  have hk' := hk.kind
  rw [h3] at hk'
  rw [readDynamics, place_read (dynamics_members _) h2 hk.lengths, readDynamicsValue]
  simp only [Option.map_some, markOf, markTypeOf, markNameOf, h3, h4]
  by_cases hc : c = .otherDynamics
  · subst hc
    rw [if_pos (by rw [h5]; rfl), if_pos rfl, other_dynamic _ (h4 ▸ (hk'.2 rfl).2)]
    rfl
  · rw [if_neg hc]
    have hx : ¬ x.child = chars "other-dynamics" := by
      rw [h5]
      clear h3 h5 hk'
      revert hc
      cases c <;> decide
    rw [if_neg hx, h5]
    clear h3 h5 hk' hx
    cases c <;> first | exact absurd rfl hc | rfl

theorem fermata_read (tick : Int) {x : FermataXml} {a : MarkSaid} (h : FermataSays x a) (hk : MarkKept a) : readFermata tick x = markOf tick a := by
  obtain ⟨h1, h2, ⟨s, d, h3, h5, h6⟩, h4⟩ := h
  rw [readFermata, h5, h6]
  have e1 : (parseEnum (StringEnum.toStr s) : Core.FermataShape) = s := by cases s <;> rfl
  have e2 : (d.map StringEnum.toStr).map (parseEnum : Str → Core.UprightInverted) = d := by rcases d with _ | _ | _ <;> rfl
  rw [e1, e2]
  simp only [markOf, markTypeOf, markNameOf, h3, hk.fermata s d h3]
  rfl

theorem mapM_read {α β γ : Type} {R : α → β → Prop} {f : α → Option γ} {g : β → γ} {xs : List α} {l : List β} (h : List.Forall₂ R xs l) (hf : ∀ x, ∀ a ∈ l, R x a → f x = some (g a)) :
    xs.mapM f = some (l.map g) := by
  induction h with
  | nil => rfl
  | cons h _ ih =>
    rename_i x a xs l _
    rw [List.mapM_cons, hf x a List.mem_cons_self h, ih (fun x b hb => hf x b (List.mem_cons_of_mem _ hb))]
    rfl

theorem notation_read (tick : Int) {x : NotationXml} {l : List MarkSaid} (h : NotationSays x l) (hk : ∀ a ∈ l, MarkKept a) : readNotation tick x = some (l.map (markOf tick)) := by
  cases x with
  | articulations xs => exact mapM_read h (fun x a ha h => articulation_read tick h (hk a ha))
  | ornaments xs acc =>
    obtain ⟨rfl, h⟩ := h
    rw [readNotation, readAll, mapM_read (g := fun a => some (markOf tick a)) h (fun x a ha h => ornament_read tick h (hk a ha))]
    simp [List.filterMap_map, Function.comp_def, List.filterMap_eq_map']
  | technical xs =>
    rw [readNotation, readAll, mapM_read (g := fun a => some (markOf tick a)) h (fun x a ha h => technicalMark_read tick h (hk a ha))]
    simp [List.filterMap_map, Function.comp_def, List.filterMap_eq_map']
  | dynamics d =>
    obtain ⟨a, rfl, h⟩ := h
    rw [readNotation, dynamics_read tick h (hk a List.mem_cons_self)]
    rfl
  | fermata d =>
    obtain ⟨a, rfl, h⟩ := h
    rw [readNotation, fermata_read tick h (hk a List.mem_cons_self)]
    rfl
  | arpeggiate d => exact h.elim
  | nonArpeggiate => exact h.elim
  | accidentalMark t p => exact h.elim

theorem marks_read (tick : Int) {xs : List NotationXml} {l : List MarkSaid} (h : MarksSay xs l) (hk : ∀ a ∈ l, MarkKept a) : readMarks tick xs = some (l.map (markOf tick)) := by
  obtain ⟨ls, h, rfl⟩ := h
  rw [readMarks, mapM_read (g := fun l => l.map (markOf tick)) h (fun x a ha h => notation_read tick h (fun b hb => hk b (List.mem_flatten.mpr ⟨a, ha, hb⟩)))]
  rw [Option.map_some, List.map_flatten]

/-! ### Writing -/

/-- The marks written, in their groups. -/
structure WrittenOf (w : WrittenMarks) (l : List MarkSaid) : Prop where
  direct : List.Forall₂ (fun n a => NotationSays n [a]) w.direct (marksAt .alone l)
  articulations : List.Forall₂ ArticulationSays w.articulations (marksAt .articulations l)
  ornaments : List.Forall₂ OrnamentSays w.ornaments (marksAt .ornaments l)
  technicals : List.Forall₂ TechnicalSays w.technicals (marksAt .technical l)

/-- The categories of a type, in the order of the writer. -/
def writerGroup (t : Api.MarkType) : Bool × Bool × Bool × Bool × Bool := (isMarkArticulation t || isMarkCustom t, isMarkOrnament t, isMarkTechnical t, isMarkDynamic t, isMarkFermata t)

theorem write_articulation {t : Api.MarkType} (h : writerGroup t = (true, false, false, false, false)) {m : MarkData} (hm : m.markType = t) (w : WrittenMarks) :
    writeMark w m = (writeArticulation m).map (fun a => { w with articulations := w.articulations ++ [a] }) := by
  subst hm
  simp only [writerGroup, Prod.mk.injEq] at h
  obtain ⟨h1, h2, h3, h4, h5⟩ := h
  unfold writeMark addArticulation addOrnament addRest
  simp only [h1, h2, h3, h4, h5, if_true, Bool.false_eq_true, if_false]
  cases writeArticulation m <;> rfl

theorem write_ornament {t : Api.MarkType} (h : writerGroup t = (false, true, false, false, false)) {m : MarkData} (hm : m.markType = t) (w : WrittenMarks) :
    writeMark w m = (writeOrnament m).map (fun a => { w with ornaments := w.ornaments ++ [a] }) := by
  subst hm
  simp only [writerGroup, Prod.mk.injEq] at h
  obtain ⟨h1, h2, h3, h4, h5⟩ := h
  unfold writeMark addArticulation addOrnament addRest
  simp only [h1, h2, h3, h4, h5, if_true, Bool.false_eq_true, if_false, Option.bind_some]
  cases writeOrnament m <;> rfl

theorem write_technical {t : Api.MarkType} (h : writerGroup t = (false, false, true, false, false)) {m : MarkData} (hm : m.markType = t) (w : WrittenMarks) :
    writeMark w m = (writeTechnical m).map (fun a => { w with technicals := w.technicals ++ [a] }) := by
  subst hm
  simp only [writerGroup, Prod.mk.injEq] at h
  obtain ⟨h1, h2, h3, h4, h5⟩ := h
  unfold writeMark addArticulation addOrnament addRest
  simp only [h1, h2, h3, h4, h5, if_true, Bool.false_eq_true, if_false, Option.bind_some]

theorem write_dynamics {t : Api.MarkType} (h : writerGroup t = (false, false, false, true, false)) {m : MarkData} (hm : m.markType = t) (w : WrittenMarks) :
    writeMark w m = (writeDynamics m).map (fun a => { w with direct := w.direct ++ [.dynamics a] }) := by
  subst hm
  simp only [writerGroup, Prod.mk.injEq] at h
  obtain ⟨h1, h2, h3, h4, h5⟩ := h
  unfold writeMark addArticulation addOrnament addRest
  simp only [h1, h2, h3, h4, h5, if_true, Bool.false_eq_true, if_false, Option.bind_some]

theorem write_fermata {t : Api.MarkType} (h : writerGroup t = (false, false, false, false, true)) {m : MarkData} (hm : m.markType = t) (w : WrittenMarks) :
    writeMark w m = (writeFermata m).map (fun a => { w with direct := w.direct ++ [.fermata a] }) := by
  subst hm
  simp only [writerGroup, Prod.mk.injEq] at h
  obtain ⟨h1, h2, h3, h4, h5⟩ := h
  unfold writeMark addArticulation addOrnament addRest
  simp only [h1, h2, h3, h4, h5, if_true, Bool.false_eq_true, if_false, Option.bind_some]

theorem marksAt_append (g : MarkHome) (l : List MarkSaid) (a : MarkSaid) : marksAt g (l ++ [a]) = if a.kind.group = g then marksAt g l ++ [a] else marksAt g l := by
  unfold marksAt
  rw [List.filter_append]
  by_cases h : a.kind.group = g
  · rw [if_pos h]; simp [h]
  · rw [if_neg h]; simp [h]

/-- What the writer makes of the type of an articulation. -/
theorem articulation_type (c : Core.ArticulationsChoice) (text : Str) (ht : c ≠ .otherArticulation → text = []) (t : Api.MarkType)
    (h : t = if c = .otherArticulation then customOr text (MapName.articulationsMap.toApi c) else MapName.articulationsMap.toApi c) :
    writerGroup t = (true, false, false, false, false) ∧ (MapName.articulationsMap.toCore t : Core.ArticulationsChoice) = c ∧ articulationElement t = some c ∧
      (if isMarkCustom t then getCustomMarkName t else if t = .otherArticulation then (if c = .otherArticulation then text else articulationName c) else []) = text := by
  by_cases hc : c = .otherArticulation
  · subst hc
    rw [if_pos rfl] at h
    by_cases hs : text = customName
    · subst hs
      have : t = .customAccentTenuto := by rw [h]; decide +kernel
      subst this
      decide +kernel
    · have : t = .otherArticulation := by
        rw [h, customOr, getMarkTypeFromCustomString, if_neg hs]
        decide +kernel
      subst this
      exact ⟨by decide +kernel, by decide +kernel, rfl, rfl⟩
  · rw [if_neg hc] at h
    have := ht hc
    subst this
    subst h
    cases c <;> first | exact absurd rfl hc | decide +kernel

theorem ornament_type (c : Core.OrnamentsChoice) (hc : c ≠ .tremolo) (t : Api.MarkType) (h : t = MapName.ornamentsMap.toApi c) :
    writerGroup t = (false, true, false, false, false) ∧ isMarkTremolo t = false ∧ (MapName.ornamentsMap.toCore t : Core.OrnamentsChoice) = c ∧ ornamentElement t = some c ∧
      ((t = .unknownOrnament ∨ t = .otherOrnament) ↔ c = .otherOrnament) := by
  subst h
  cases c <;> first | exact absurd rfl hc | decide +kernel

theorem tremolo_type (n : Int) (h1 : 1 ≤ n) (h2 : n ≤ 5) : writerGroup (tremoloType n) = (false, true, false, false, false) ∧ isMarkTremolo (tremoloType n) = true ∧
    ornamentElement (tremoloType n) = some .tremolo ∧ numTremoloSlashes (tremoloType n) = n := by
  have : n = 1 ∨ n = 2 ∨ n = 3 ∨ n = 4 ∨ n = 5 := by omega
  rcases this with rfl | rfl | rfl | rfl | rfl <;> decide +kernel

theorem technical_type : ∀ c ∈ keptTechnical, writerGroup (MapName.technicalMarkMap.toApi c) = (false, false, true, false, false) ∧
    (MapName.technicalMarkMap.toCore (MapName.technicalMarkMap.toApi c : Api.MarkType) : Core.TechnicalChoice) = c ∧ technicalElement (MapName.technicalMarkMap.toApi c) = some c ∧
    (((MapName.technicalMarkMap.toApi c : Api.MarkType) = .unknownTechnical ∨ (MapName.technicalMarkMap.toApi c : Api.MarkType) = .otherTechnical) ↔ c = .otherTechnical) := by decide +kernel

theorem dynamic_type (c : Core.DynamicsEnum) : writerGroup (MapName.dynamicsMap.toApi c) = (false, false, false, true, false) ∧
    (MapName.dynamicsMap.toCore (MapName.dynamicsMap.toApi c : Api.MarkType) : Core.DynamicsEnum) = c := by cases c <;> decide +kernel

theorem fermata_type (s : Core.FermataShape) (d : Option Core.UprightInverted) : writerGroup (fermataType s d) = (false, false, false, false, true) ∧ fermataParts (fermataType s d) = (s, d) := by
  cases s <;> rcases d with _ | _ | _ <;> decide +kernel

theorem mark_written (tick : Int) {w : WrittenMarks} {l : List MarkSaid} (hw : WrittenOf w l) {a : MarkSaid} (hk : MarkKept a) (ht : ∀ n, a.kind = .tremolo n → a.text = []) (hf : ∀ s d, a.kind = .fermata s d → a.text = [])
    (ho : a.kind ≠ .ornament .tremolo) : ∃ w', writeMark w (markOf tick a) = some w' ∧ WrittenOf w' (l ++ [a]) := by
  have hk' := hk.kind
  cases e : a.kind with
  | articulation c =>
    rw [e] at hk'
    obtain ⟨p, p1, p2⟩ := place_written (mark_members hk (by rw [e]; rfl)) hk.lengths
    have hty : (markOf tick a).markType = if c = .otherArticulation then customOr a.text (MapName.articulationsMap.toApi c) else MapName.articulationsMap.toApi c := by
      simp only [markOf, markTypeOf, e]
    have hna : (markOf tick a).name = if c = .otherArticulation then a.text else articulationName c := by simp only [markOf, markNameOf, e]
    obtain ⟨g1, g2, g3, g4⟩ := articulation_type c a.text hk' _ hty
    have hwr : writeArticulation (markOf tick a) = some { choice := c, position := p, text := a.text } := by
      rw [writeArticulation, hna]
      simp only [g2, g3, g4, positionIfChosen, if_true]
      rw [show (markOf tick a).positionData = placeOf a.place from rfl, p1]
      rfl
    refine ⟨_, by rw [write_articulation g1 rfl, hwr]; rfl, ?_⟩
    constructor <;> rw [marksAt_append, e]
    · exact hw.direct
    · exact List.rel_append hw.articulations (.cons ⟨rfl, p2, e, rfl⟩ .nil)
    · exact hw.ornaments
    · exact hw.technicals
  | ornament c =>
    rw [e] at hk' ho
    have hc : c ≠ .tremolo := fun h => ho (by rw [h])
    obtain ⟨p, p1, p2⟩ := place_written (mark_members hk (by rw [e]; rfl)) hk.lengths
    have hty : (markOf tick a).markType = MapName.ornamentsMap.toApi c := by simp only [markOf, markTypeOf, e]
    have hna : (markOf tick a).name = if c = .otherOrnament then a.text else ornamentName c := by simp only [markOf, markNameOf, e]
    obtain ⟨g1, g2, g3, g4, g5⟩ := ornament_type c hc _ hty
    have hwr : writeOrnament (markOf tick a) = some { choice := c, position := p, text := a.text } := by
      rw [writeOrnament, hna]
      simp only [g2, g3, g4, g5, positionIfChosen, if_true, Bool.false_eq_true, if_false]
      rw [show (markOf tick a).positionData = placeOf a.place from rfl, p1]
      by_cases hot : c = .otherOrnament
      · simp only [if_pos hot]; rfl
      · simp only [if_neg hot, hk'.1 hot]; rfl
    refine ⟨_, by rw [write_ornament g1 rfl, hwr]; rfl, ?_⟩
    constructor <;> rw [marksAt_append, e]
    · exact hw.direct
    · exact hw.articulations
    · exact List.rel_append hw.ornaments (.cons ⟨rfl, p2, .inl ⟨hc, e, rfl⟩⟩ .nil)
    · exact hw.technicals
  | tremolo n =>
    rw [e] at hk'
    obtain ⟨p, p1, p2⟩ := place_written (mark_members hk (by rw [e]; rfl)) hk.lengths
    have hty : (markOf tick a).markType = tremoloType n := by simp only [markOf, markTypeOf, e]
    obtain ⟨g1, g2, g3, g4⟩ := tremolo_type n hk'.1 hk'.2
    have hwr : writeOrnament (markOf tick a) = some { choice := .tremolo, position := p, text := (IntRange.ofKind .TremoloMarks n).toStr, tremoloType := some (chars "single") } := by
      rw [writeOrnament, hty]
      simp only [g2, g3, g4, positionIfChosen, if_true]
      rw [show (markOf tick a).positionData = placeOf a.place from rfl, p1]
      rfl
    refine ⟨_, by rw [write_ornament (hty ▸ g1) rfl, hwr]; rfl, ?_⟩
    constructor <;> rw [marksAt_append, e]
    · exact hw.direct
    · exact hw.articulations
    · exact List.rel_append hw.ornaments (.cons ⟨rfl, p2, .inr ⟨rfl, .inr rfl, ht n e, n, e, bounded_says (k := .TremoloMarks) ⟨le_trans (by decide) hk'.1, le_trans hk'.2 (by decide)⟩⟩⟩ .nil)
    · exact hw.technicals
  | technical c =>
    rw [e] at hk'
    obtain ⟨p, p1, p2⟩ := place_written (mark_members hk (by rw [e]; rfl)) hk.lengths
    have hty : (markOf tick a).markType = MapName.technicalMarkMap.toApi c := by simp only [markOf, markTypeOf, e]
    have hna : (markOf tick a).name = if c = .otherTechnical then a.text else technicalName c := by simp only [markOf, markNameOf, e]
    obtain ⟨g1, g2, g3, g4⟩ := technical_type c hk'.1
    have hwr : writeTechnical (markOf tick a) = some { choice := c, position := p, text := a.text } := by
      rw [writeTechnical, hna, hty]
      simp only [g2, g3, g4, positionIfChosen, if_true]
      rw [show (markOf tick a).positionData = placeOf a.place from rfl, p1]
      by_cases hot : c = .otherTechnical
      · simp only [if_pos hot]; rfl
      · simp only [if_neg hot, hk'.2 hot]; rfl
    refine ⟨_, by rw [write_technical (hty ▸ g1) rfl, hwr]; rfl, ?_⟩
    constructor <;> rw [marksAt_append, e]
    · exact hw.direct
    · exact hw.articulations
    · exact hw.ornaments
    · exact List.rel_append hw.technicals (.cons ⟨rfl, p2, e, rfl⟩ .nil)
  | dynamic c =>
    rw [e] at hk'
    obtain ⟨p, p1, p2⟩ := place_written (dynamics_members a.place) hk.lengths
    have hty : (markOf tick a).markType = MapName.dynamicsMap.toApi c := by simp only [markOf, markTypeOf, e]
    have hna : (markOf tick a).name = if c = .otherDynamics then a.text else StringEnum.toStr c := by simp only [markOf, markNameOf, e]
    obtain ⟨g1, g2⟩ := dynamic_type c
    have hv : dynamicsValue (markOf tick a) = { enum := c, custom := a.text } := by
      rw [dynamicsValue, hna, hty, g2]
      by_cases hot : c = .otherDynamics
      · subst hot
        obtain ⟨t1, t2⟩ := hk'.2 rfl
        simp only [if_true]
        rw [if_pos ⟨trivial, t1⟩, other_dynamic _ t2]
        rfl
      · rw [if_neg (fun h => hot h.1), hk'.1 hot]
        clear hty hna g1 g2 hk' e
        cases c <;> first | exact absurd rfl hot | rfl
    have hwr : writeDynamics (markOf tick a) = some { child := StringEnum.toStr c, text := a.text, position := p } := by
      rw [writeDynamics, hv, show (markOf tick a).positionData = placeOf a.place from rfl, p1, show (markOf tick a).printData = {} from rfl]
      by_cases hot : c = .otherDynamics
      · simp only [if_pos hot]; rfl
      · simp only [if_neg hot, hk'.1 hot]; rfl
    refine ⟨_, by rw [write_dynamics (hty ▸ g1) rfl, hwr]; rfl, ?_⟩
    constructor <;> rw [marksAt_append, e]
    · exact List.rel_append hw.direct (.cons ⟨a, rfl, rfl, p2, ⟨c, e, rfl⟩, rfl⟩ .nil)
    · exact hw.articulations
    · exact hw.ornaments
    · exact hw.technicals
  | fermata s d =>
    have hp := hk.fermata s d e
    have hty : (markOf tick a).markType = fermataType s d := by simp only [markOf, markTypeOf, e]
    obtain ⟨g1, g2⟩ := fermata_type s d
    have hwr : writeFermata (markOf tick a) = some { text := StringEnum.toStr s, type := d.map StringEnum.toStr } := by
      rw [writeFermata, hty, g2, show (markOf tick a).positionData = placeOf a.place from rfl, hp, show (markOf tick a).printData = {} from rfl]
      rfl
    refine ⟨_, by rw [write_fermata (hty ▸ g1) rfl, hwr]; rfl, ?_⟩
    have hn : DecimalSays none none := .inl ⟨rfl, rfl⟩
    constructor <;> rw [marksAt_append, e]
    · exact List.rel_append hw.direct (.cons ⟨a, rfl, rfl, by rw [hp]; exact ⟨hn, hn, hn, hn, rfl, rfl, rfl⟩, ⟨s, d, e, rfl, rfl⟩, hf s d e⟩ .nil)
    · exact hw.articulations
    · exact hw.ornaments
    · exact hw.technicals

/-- What every mark that is said fulfils. -/
def Sayable (a : MarkSaid) : Prop := (∀ n, a.kind = .tremolo n → a.text = []) ∧ (∀ s d, a.kind = .fermata s d → a.text = []) ∧ a.kind ≠ .ornament .tremolo

theorem sayable_of {α : Type} {R : α → MarkSaid → Prop} {xs : List α} {l : List MarkSaid} (h : List.Forall₂ R xs l) (hr : ∀ x a, R x a → Sayable a) : ∀ a ∈ l, Sayable a := by
  induction h with
  | nil => intro a ha; cases ha
  | cons h _ ih =>
    intro b hb
    rcases List.mem_cons.mp hb with rfl | hb
    · exact hr _ _ h
    · exact ih b hb

theorem notation_sayable {x : NotationXml} {l : List MarkSaid} (h : NotationSays x l) : ∀ a ∈ l, Sayable a := by
  cases x with
  | articulations xs => exact sayable_of h (fun x a ⟨_, _, h, _⟩ => by unfold Sayable; rw [h]; simp)
  | ornaments xs acc =>
    exact sayable_of h.2 (fun x a ⟨_, _, h⟩ => by
      unfold Sayable
      rcases h with ⟨h1, h2, _⟩ | ⟨_, _, h1, n, h2, _⟩
      · rw [h2]; simpa using h1
      · rw [h2]; exact ⟨fun _ _ => h1, by simp, by simp⟩)
  | technical xs => exact sayable_of h (fun x a ⟨_, _, h, _⟩ => by unfold Sayable; rw [h]; simp)
  | dynamics d =>
    obtain ⟨a, rfl, _, _, ⟨c, h, _⟩, _⟩ := h
    intro b hb
    rw [List.mem_singleton.mp hb]
    unfold Sayable; rw [h]; simp
  | fermata d =>
    obtain ⟨a, rfl, _, _, ⟨s, d, h, _⟩, ht⟩ := h
    intro b hb
    rw [List.mem_singleton.mp hb]
    unfold Sayable; rw [h]; exact ⟨by simp, fun _ _ _ => ht, by simp⟩
  | arpeggiate d => exact h.elim
  | nonArpeggiate => exact h.elim
  | accidentalMark t p => exact h.elim

theorem marks_sayable {xs : List NotationXml} {l : List MarkSaid} (h : MarksSay xs l) : ∀ a ∈ l, Sayable a := by
  obtain ⟨ls, h, rfl⟩ := h
  induction h with
  | nil => intro a ha; cases ha
  | cons h _ ih =>
    intro a ha
    rw [List.flatten_cons, List.mem_append] at ha
    rcases ha with ha | ha
    · exact notation_sayable h a ha
    · exact ih a ha

theorem marks_written (tick : Int) (l : List MarkSaid) : ∀ (w : WrittenMarks) (done : List MarkSaid), WrittenOf w done → (∀ a ∈ l, MarkKept a) → (∀ a ∈ l, Sayable a) →
    ∃ w', (l.map (markOf tick)).foldlM writeMark w = some w' ∧ WrittenOf w' (done ++ l) := by
  induction l with
  | nil => intro w done hw _ _; exact ⟨w, rfl, by rw [List.append_nil]; exact hw⟩
  | cons a l ih =>
    intro w done hw hk hs
    obtain ⟨s1, s2, s3⟩ := hs a List.mem_cons_self
    obtain ⟨w1, h1, h2⟩ := mark_written tick hw (hk a List.mem_cons_self) s1 s2 s3
    obtain ⟨w2, h3, h4⟩ := ih w1 (done ++ [a]) h2 (fun b hb => hk b (List.mem_cons_of_mem _ hb)) (fun b hb => hs b (List.mem_cons_of_mem _ hb))
    refine ⟨w2, ?_, by rwa [List.append_assoc] at h4⟩
    rw [List.map_cons, List.foldlM_cons, h1]
    exact h3

theorem marksSay_append {xs ys : List NotationXml} {l m : List MarkSaid} (h : MarksSay xs l) (h' : MarksSay ys m) : MarksSay (xs ++ ys) (l ++ m) := by
  obtain ⟨ls, h1, rfl⟩ := h
  obtain ⟨ms, h2, rfl⟩ := h'
  exact ⟨ls ++ ms, List.rel_append h1 h2, List.flatten_append.symm⟩

theorem marksSay_alone {xs : List NotationXml} {l : List MarkSaid} (h : List.Forall₂ (fun n a => NotationSays n [a]) xs l) : MarksSay xs l := by
  induction h with
  | nil => exact ⟨[], .nil, rfl⟩
  | cons h _ ih => exact marksSay_append (xs := [_]) (l := [_]) ⟨[[_]], .cons h .nil, rfl⟩ ih

theorem marksSay_group {α : Type} {R : α → MarkSaid → Prop} {xs : List α} {l : List MarkSaid} [DecidableEq α] (h : List.Forall₂ R xs l) (f : List α → NotationXml) (hf : NotationSays (f xs) l) :
    MarksSay (if xs = [] then [] else [f xs]) l := by
  by_cases e : xs = []
  · subst e
    cases h
    exact ⟨[], .nil, rfl⟩
  · rw [if_neg e]
    exact ⟨[l], .cons hf .nil, by simp⟩

/-- The order of writing. -/
def marksWritten (l : List MarkSaid) : List MarkSaid := marksAt .alone l ++ marksAt .articulations l ++ marksAt .ornaments l ++ marksAt .technical l

theorem marks_said (tick : Int) {xs : List NotationXml} {l : List MarkSaid} (h : MarksSay xs l) (hk : ∀ a ∈ l, MarkKept a) : ∃ ys, marksThrough tick xs = some ys ∧ MarksSay ys (marksWritten l) := by
  obtain ⟨w, h1, h2⟩ := marks_written tick l {} [] ⟨.nil, .nil, .nil, .nil⟩ hk (marks_sayable h)
  rw [List.nil_append] at h2
  refine ⟨_, by rw [marksThrough, marks_read tick h hk, Option.bind_some, writeMarks, h1, Option.map_some], ?_⟩
  exact marksSay_append (marksSay_append (marksSay_append (marksSay_alone h2.direct) (marksSay_group h2.articulations .articulations h2.articulations))
    (marksSay_group h2.ornaments (fun l => .ornaments l []) ⟨rfl, h2.ornaments⟩)) (marksSay_group h2.technicals .technical h2.technicals)

theorem marksWritten_same (l : List MarkSaid) : SameMarks (marksWritten l) l := by
  constructor
  · induction l with
    | nil => exact .nil
    | cons a l ih =>
      have hof : ∀ g, marksAt g (a :: l) = if a.kind.group = g then a :: marksAt g l else marksAt g l := fun g => by
        unfold marksAt; rw [List.filter_cons]; simp
      unfold marksWritten at ih ⊢
      rw [hof, hof, hof, hof]
      cases e : a.kind.group <;> simp only [reduceCtorEq, if_false, if_true]
      · exact ih.cons a
      · rw [List.append_assoc, List.append_assoc, List.cons_append]
        exact List.perm_middle.trans ((by simpa [List.append_assoc] using ih : (marksAt .alone l ++ (marksAt .articulations l ++ (marksAt .ornaments l ++ marksAt .technical l))).Perm l).cons a)
      · rw [List.append_assoc, List.cons_append]
        exact List.perm_middle.trans ((by simpa [List.append_assoc] using ih : ((marksAt .alone l ++ marksAt .articulations l) ++ (marksAt .ornaments l ++ marksAt .technical l)).Perm l).cons a)
      · exact List.perm_middle.trans (ih.cons a)
  · intro g
    have hh : ∀ s, marksAt g (marksAt s l) = if s = g then marksAt g l else [] := fun s => by
      unfold marksAt
      rw [List.filter_filter]
      split
      · subst_vars; simp
      · rename_i hne
        rw [List.filter_eq_nil_iff]
        intro a _
        simp only [Bool.and_eq_true, decide_eq_true_eq]
        rintro ⟨rfl, rfl⟩
        exact hne rfl
    have : marksAt g (marksWritten l) = marksAt g (marksAt .alone l) ++ marksAt g (marksAt .articulations l) ++ marksAt g (marksAt .ornaments l) ++ marksAt g (marksAt .technical l) := by
      unfold marksWritten; rw [marksAt, List.filter_append, List.filter_append, List.filter_append]; rfl
    rw [this, hh, hh, hh, hh]
    cases g <;> simp

/-! ### What is lost -/

theorem write_nothing {m : MarkData} (h : writerGroup m.markType = (false, false, false, false, false)) (w : WrittenMarks) : writeMark w m = some w := by
  simp only [writerGroup, Prod.mk.injEq] at h
  obtain ⟨h1, h2, h3, h4, h5⟩ := h
  unfold writeMark addArticulation addOrnament addRest
  simp only [h1, h2, h3, h4, h5, Bool.false_eq_true, if_false, Option.bind_some]

theorem writeMarks_nothing (l r ms : List MarkData) (h : ∀ m ∈ ms, writerGroup m.markType = (false, false, false, false, false)) : writeMarks (l ++ (ms ++ r)) = writeMarks (l ++ r) := by
  have hf : ∀ w, (ms ++ r).foldlM writeMark w = r.foldlM writeMark w := by
    intro w
    induction ms with
    | nil => rfl
    | cons m ms ih =>
      rw [List.cons_append, List.foldlM_cons, write_nothing (h m List.mem_cons_self)]
      exact ih (fun m' hm => h m' (List.mem_cons_of_mem _ hm))
  rw [writeMarks, writeMarks, List.foldlM_append, List.foldlM_append]
  exact congrArg _ (congrArg _ (funext hf))

/-- A notation whose marks are not written changes nothing. -/
theorem notation_lost (tick : Int) (before after : List NotationXml) {x : NotationXml} {ms : List MarkData} (hx : readNotation tick x = some ms)
    (h : ∀ m ∈ ms, writerGroup m.markType = (false, false, false, false, false)) : marksThrough tick (before ++ x :: after) = marksThrough tick (before ++ after) := by
  rw [marksThrough, marksThrough, readMarks, readMarks, List.mapM_append, List.mapM_append, List.mapM_cons, hx]
  cases e1 : before.mapM (readNotation tick) with
  | none => rfl
  | some l =>
    cases e2 : after.mapM (readNotation tick) with
    | none => rfl
    | some r =>
      show writeMarks (l ++ ms :: r).flatten = writeMarks (l ++ r).flatten
      rw [List.flatten_append, List.flatten_cons, List.flatten_append]
      exact writeMarks_nothing _ _ _ h

theorem arpeggiate_unwritten (tick : Int) (d : Option Str) : writerGroup (readArpeggiate tick d).markType = (false, false, false, false, false) := by
  rcases d with _ | d
  · show writerGroup .arpeggiate = _
    decide +kernel
  · show writerGroup (if (parseEnum d : Core.UpDown) = .up then Api.MarkType.arpeggiateUp else .arpeggiateDown) = _
    split <;> decide +kernel

theorem accidentalMark_unwritten (v : Core.AccidentalValue) : writerGroup (MapName.accidentalMarkMap.toApi v) = (false, false, false, false, false) := by
  cases v <;> decide +kernel

theorem accidentalMark_read {tick : Int} {t : Str} {p : PositionXml} {m : MarkData} (h : readAccidentalMark tick t p = some m) : writerGroup m.markType = (false, false, false, false, false) := by
  rw [readAccidentalMark, Option.map_eq_some_iff] at h
  obtain ⟨_, _, rfl⟩ := h
  exact accidentalMark_unwritten _

/-- Marks that are written alone. -/
def isAlone (t : Api.MarkType) : Bool := isMarkDynamic t || isMarkFermata t

/-- What all marks that were read fulfil: those that are written alone have no colours and fonts, and fermatas no place. -/
def PlainAlone (m : MarkData) : Prop := (isAlone m.markType = true → m.printData = {}) ∧ (isMarkFermata m.markType = true → m.positionData = {})

theorem plainAlone_of {m : MarkData} (h : isAlone m.markType = false) : PlainAlone m :=
  ⟨fun e => absurd e (by rw [h]; decide), fun e => absurd e (by rw [isAlone, Bool.or_eq_false_iff] at h; rw [h.2]; decide)⟩

theorem mapM_mem {α β : Type} {f : α → Option β} : ∀ {l : List α} {r : List β}, l.mapM f = some r → ∀ b ∈ r, ∃ a ∈ l, f a = some b
  | [], r, h, b, hb => by cases h; cases hb
  | a :: l, r, h, b, hb => by
    rw [List.mapM_cons] at h
    obtain ⟨c, h1, h⟩ := Option.bind_eq_some_iff.mp h
    obtain ⟨r', h2, h⟩ := Option.bind_eq_some_iff.mp h
    cases h
    rcases List.mem_cons.mp hb with rfl | hb
    · exact ⟨a, List.mem_cons_self, h1⟩
    · obtain ⟨a', h3, h4⟩ := mapM_mem h2 b hb
      exact ⟨a', List.mem_cons_of_mem _ h3, h4⟩

theorem readAll_mem {α : Type} {f : α → Option (Option MarkData)} {l : List α} {r : List MarkData} (h : readAll f l = some r) : ∀ m ∈ r, ∃ a ∈ l, f a = some (some m) := by
  rw [readAll, Option.map_eq_some_iff] at h
  obtain ⟨q, h1, rfl⟩ := h
  intro m hm
  obtain ⟨o, h2, h3⟩ := List.mem_filterMap.mp hm
  cases h3
  exact mapM_mem h1 _ h2

theorem read_plainAlone {tick : Int} {x : NotationXml} {ms : List MarkData} (h : readNotation tick x = some ms) : ∀ m ∈ ms, PlainAlone m := by
  intro m hm
  cases x with
  | articulations l =>
    obtain ⟨x, _, hx⟩ := mapM_mem h m hm
    rw [readArticulation] at hx
    obtain ⟨p, _, hx⟩ := Option.bind_eq_some_iff.mp hx
    obtain ⟨q, _, hx⟩ := Option.bind_eq_some_iff.mp hx
    cases hx
    refine plainAlone_of ?_
    show isAlone (if x.choice = .otherArticulation then customOr x.text (MapName.articulationsMap.toApi x.choice) else MapName.articulationsMap.toApi x.choice) = false
    have ht : ∀ c : Core.ArticulationsChoice, isAlone (MapName.articulationsMap.toApi c) = false := by intro c; cases c <;> decide +kernel
    split
    · unfold customOr getMarkTypeFromCustomString
      by_cases hs : x.text = customName
      · rw [if_pos hs]; exact (by decide +kernel : isAlone .customAccentTenuto = false)
      · rw [if_neg hs, if_neg (fun h => h rfl)]; exact ht _
    · exact ht _
  | ornaments l acc =>
    rw [readNotation] at h
    obtain ⟨o, h1, h⟩ := Option.bind_eq_some_iff.mp h
    obtain ⟨a, h2, h⟩ := Option.bind_eq_some_iff.mp h
    cases h
    rcases List.mem_append.mp hm with hm | hm
    · obtain ⟨x, _, hx⟩ := readAll_mem h1 m hm
      rw [readOrnament] at hx
      split at hx
      · cases hx
      · obtain ⟨p, _, hx⟩ := Option.bind_eq_some_iff.mp hx
        obtain ⟨q, _, hx⟩ := Option.bind_eq_some_iff.mp hx
        cases hx
        refine plainAlone_of ?_
        show isAlone (if x.choice = .tremolo then tremoloType (parseBounded .TremoloMarks x.text) else MapName.ornamentsMap.toApi x.choice) = false
        have ht : ∀ c : Core.OrnamentsChoice, isAlone (MapName.ornamentsMap.toApi c) = false := by intro c; cases c <;> decide +kernel
        split
        · unfold tremoloType
          split_ifs <;> first | exact ht _ | decide +kernel
        · exact ht _
    · obtain ⟨x, _, hx⟩ := mapM_mem h2 m hm
      rw [readAccidentalMark, Option.map_eq_some_iff] at hx
      obtain ⟨_, _, rfl⟩ := hx
      refine plainAlone_of ?_
      have := accidentalMark_unwritten (parseEnum x.1)
      simp only [writerGroup, Prod.mk.injEq] at this
      show isAlone (MapName.accidentalMarkMap.toApi (parseEnum x.1 : Core.AccidentalValue)) = false
      rw [isAlone, this.2.2.2.1, this.2.2.2.2]; rfl
  | technical l =>
    obtain ⟨x, _, hx⟩ := readAll_mem h m hm
    rw [readTechnical] at hx
    split at hx
    · cases hx
    · obtain ⟨p, _, hx⟩ := Option.bind_eq_some_iff.mp hx
      obtain ⟨q, _, hx⟩ := Option.bind_eq_some_iff.mp hx
      cases hx
      refine plainAlone_of ?_
      have ht : ∀ c : Core.TechnicalChoice, isAlone (MapName.technicalMarkMap.toApi c) = false := by intro c; cases c <;> decide +kernel
      exact ht _
  | dynamics d =>
    rw [readNotation, Option.map_eq_some_iff] at h
    obtain ⟨m', h1, rfl⟩ := h
    rw [List.mem_singleton.mp hm]
    rw [readDynamics, Option.map_eq_some_iff] at h1
    obtain ⟨p, _, rfl⟩ := h1
    refine ⟨fun _ => rfl, fun e => absurd e ?_⟩
    have := (dynamic_type (readDynamicsValue d).enum).1
    simp only [writerGroup, Prod.mk.injEq] at this
    show ¬ isMarkFermata (MapName.dynamicsMap.toApi (readDynamicsValue d).enum) = true
    rw [this.2.2.2.2]; decide
  | fermata f =>
    cases h
    rw [List.mem_singleton.mp hm]
    exact ⟨fun _ => rfl, fun _ => rfl⟩
  | arpeggiate d =>
    cases h
    rw [List.mem_singleton.mp hm]
    exact ⟨fun _ => rfl, fun _ => rfl⟩
  | nonArpeggiate =>
    cases h
    rw [List.mem_singleton.mp hm]
    exact ⟨fun _ => rfl, fun _ => rfl⟩
  | accidentalMark t p =>
    rw [readNotation, Option.map_eq_some_iff] at h
    obtain ⟨m', h1, rfl⟩ := h
    rw [List.mem_singleton.mp hm]
    have := accidentalMark_read h1
    simp only [writerGroup, Prod.mk.injEq] at this
    exact plainAlone_of (by rw [isAlone, this.2.2.2.1, this.2.2.2.2]; rfl)

structure BareMarks (w : WrittenMarks) : Prop where
  direct : ∀ x ∈ w.direct, BareNotation x
  articulations : ∀ x ∈ w.articulations, x.print = {}
  ornaments : ∀ x ∈ w.ornaments, x.print = {}
  technicals : ∀ x ∈ w.technicals, x.print = {}

theorem mem_snoc {α : Type} {P : α → Prop} {l : List α} {a : α} (h : ∀ x ∈ l, P x) (ha : P a) : ∀ x ∈ l ++ [a], P x := by
  intro x hx
  rcases List.mem_append.mp hx with hx | hx
  · exact h x hx
  · rw [List.mem_singleton.mp hx]; exact ha

theorem writeMark_bare {w w' : WrittenMarks} {m : MarkData} (hw : BareMarks w) (hm : PlainAlone m) (h : writeMark w m = some w') : BareMarks w' := by
  unfold writeMark at h
  obtain ⟨w2, h, h3⟩ := Option.bind_eq_some_iff.mp h
  obtain ⟨w1, h1, h2⟩ := Option.bind_eq_some_iff.mp h
  have hw1 : BareMarks w1 := by
    unfold addArticulation at h1
    split at h1
    · obtain ⟨a, ha, rfl⟩ := Option.map_eq_some_iff.mp h1
      obtain ⟨p, _, rfl⟩ := Option.map_eq_some_iff.mp ha
      exact { hw with articulations := mem_snoc hw.articulations rfl }
    · cases h1; exact hw
  have hw2 : BareMarks w2 := by
    unfold addOrnament at h2
    split at h2
    · obtain ⟨a, ha, rfl⟩ := Option.map_eq_some_iff.mp h2
      obtain ⟨p, _, rfl⟩ := Option.map_eq_some_iff.mp ha
      exact { hw1 with ornaments := mem_snoc hw1.ornaments rfl }
    · cases h2; exact hw1
  unfold addRest at h3
  split at h3
  · obtain ⟨a, ha, rfl⟩ := Option.map_eq_some_iff.mp h3
    obtain ⟨p, _, rfl⟩ := Option.map_eq_some_iff.mp ha
    exact { hw2 with technicals := mem_snoc hw2.technicals rfl }
  · split at h3
    · rename_i hd
      obtain ⟨a, ha, rfl⟩ := Option.map_eq_some_iff.mp h3
      rw [writeDynamics] at ha
      obtain ⟨p, _, ha⟩ := Option.bind_eq_some_iff.mp ha
      obtain ⟨q, hq, ha⟩ := Option.bind_eq_some_iff.mp ha
      rw [hm.1 (by rw [isAlone, hd]; rfl)] at hq
      cases hq
      cases ha
      exact { hw2 with direct := mem_snoc hw2.direct rfl }
    · split at h3
      · rename_i hd
        obtain ⟨a, ha, rfl⟩ := Option.map_eq_some_iff.mp h3
        rw [writeFermata] at ha
        obtain ⟨p, hp, ha⟩ := Option.bind_eq_some_iff.mp ha
        obtain ⟨q, hq, ha⟩ := Option.bind_eq_some_iff.mp ha
        rw [hm.1 (by rw [isAlone, hd, Bool.or_true])] at hq
        rw [hm.2 hd] at hp
        cases hq
        cases hp
        cases ha
        exact { hw2 with direct := mem_snoc hw2.direct ⟨rfl, rfl⟩ }
      · cases h3; exact hw2

theorem writeMarks_bare (ms : List MarkData) : ∀ {w w' : WrittenMarks}, BareMarks w → (∀ m ∈ ms, PlainAlone m) → ms.foldlM writeMark w = some w' → BareMarks w' := by
  induction ms with
  | nil => intro w w' hw _ h; cases h; exact hw
  | cons m ms ih =>
    intro w w' hw hm h
    rw [List.foldlM_cons] at h
    obtain ⟨w1, h1, h2⟩ := Option.bind_eq_some_iff.mp h
    exact ih (writeMark_bare hw (hm m List.mem_cons_self) h1) (fun m' h' => hm m' (List.mem_cons_of_mem _ h')) h2

theorem through_bare {tick : Int} {xs ys : List NotationXml} (h : marksThrough tick xs = some ys) : ∀ y ∈ ys, BareNotation y := by
  rw [marksThrough] at h
  obtain ⟨ms, h1, h2⟩ := Option.bind_eq_some_iff.mp h
  rw [readMarks] at h1
  obtain ⟨r, h3, rfl⟩ := Option.map_eq_some_iff.mp h1
  rw [writeMarks] at h2
  obtain ⟨w, h4, rfl⟩ := Option.map_eq_some_iff.mp h2
  have hw : BareMarks w := writeMarks_bare _ ⟨fun _ h => absurd h List.not_mem_nil, fun _ h => absurd h List.not_mem_nil, fun _ h => absurd h List.not_mem_nil, fun _ h => absurd h List.not_mem_nil⟩ (fun m hm => by
    obtain ⟨l, hl, hm⟩ := List.mem_flatten.mp hm
    obtain ⟨x, _, hx⟩ := mapM_mem h3 l hl
    exact read_plainAlone hx m hm) h4
  intro y hy
  simp only [List.mem_append] at hy
  rcases hy with ((hy | hy) | hy) | hy
  · exact hw.direct y hy
  · split at hy
    · cases hy
    · rw [List.mem_singleton.mp hy]; exact hw.articulations
  · split at hy
    · cases hy
    · rw [List.mem_singleton.mp hy]; exact hw.ornaments
  · split at hy
    · cases hy
    · rw [List.mem_singleton.mp hy]; exact hw.technicals

end Mx
