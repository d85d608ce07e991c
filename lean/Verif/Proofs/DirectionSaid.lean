import Verif.Spec.DirectionSaid
import Verif.Proofs.Directions
import Verif.Proofs.NoteKept

/-! Lemmas for `Verif/Props/DirectionFileProps.lean`. -/
namespace Mx.Directions
open _root_.Spec Mx.Spec

/-! ### finite tables -/

theorem dynamics_there (d : Core.DynamicsEnum) : (MapName.dynamicsMap.toCore (MapName.dynamicsMap.toApi d : Api.MarkType) : Core.DynamicsEnum) = d ∧
    isMarkDynamic (MapName.dynamicsMap.toApi d : Api.MarkType) = true ∧ isMarkPedal (MapName.dynamicsMap.toApi d : Api.MarkType) = false := by
  cases d <;> decide +kernel

theorem dynamics_parse (d : Core.DynamicsEnum) (h : d ≠ .otherDynamics) : (tryParse (StringEnum.toStr d) : Option Core.DynamicsEnum) = some d ∧ StringEnum.toStr d ≠ chars "other-dynamics" := by
  cases d <;> first | exact absurd rfl h | decide +kernel

theorem dynamics_chain : ∀ q ∈ (StringEnum.chain : List (Str × Core.DynamicsEnum)), q.1 = StringEnum.toStr q.2 := by decide +kernel

theorem dynamics_parse_none {t : Str} (h : ∀ d : Core.DynamicsEnum, t ≠ StringEnum.toStr d) : (tryParse t : Option Core.DynamicsEnum) = none := by
  cases hp : (tryParse t : Option Core.DynamicsEnum) with
  | none => rfl
  | some d =>
    exact absurd (dynamics_chain (t, d) (ifChain_some hp)) (h d)

theorem unit_there (d : Core.NoteTypeValue) : (MapName.durationMap.toCore (MapName.durationMap.toApi (parseEnum (StringEnum.toStr d) : Core.NoteTypeValue) : Api.DurationName) : Core.NoteTypeValue) = d := by
  cases d <;> decide +kernel

theorem wedge_there (d : Core.WedgeType) (h : d ≠ .continue_) (h' : d ≠ .stop) : wedgeTypeOf (MapName.wedgeMap.toApi d : Api.WedgeType) = d := by
  cases d <;> first | exact absurd rfl h | exact absurd rfl h' | decide +kernel

theorem wedge_parse (d : Core.WedgeType) : (parseEnum (StringEnum.toStr d) : Core.WedgeType) = d := by cases d <;> decide +kernel
theorem pedal_parse (d : Core.StartStopChangeContinue) : (parseEnum (StringEnum.toStr d) : Core.StartStopChangeContinue) = d := by cases d <;> decide +kernel
theorem octave_parse (d : Core.UpDownStopContinue) : (parseEnum (StringEnum.toStr d) : Core.UpDownStopContinue) = d := by cases d <;> decide +kernel

theorem octave_there {t : Core.UpDownStopContinue} {size : Int} {x : Option Str} (h : (t = .up ∨ t = .down) ∧ (size = 8 ∨ size = 15))
    (hx : (x = none ∧ size = 8) ∨ ∃ s, x = some s ∧ IntegerText s size) : ottavaParts (ottavaType t x) = (t, size) := by
  have hs : (x.map (parseBounded .PositiveInteger)).getD 8 = size := by
    rcases hx with ⟨rfl, rfl⟩ | ⟨s, rfl, hs⟩
    · rfl
    · show parseBounded .PositiveInteger s = size
      refine parseBounded_numeral hs ?_ ?_
      · rcases h.2 with rfl | rfl <;> decide
      · rcases h.2 with rfl | rfl <;> decide
  unfold ottavaType
  rw [hs]
  rcases h.1 with rfl | rfl <;> rcases h.2 with rfl | rfl <;> rfl

theorem placement_text {x : Option Str} (h : PlacementText x) : placementText (readPlacement x) = x := by
  rcases h with rfl | rfl | rfl <;> decide +kernel

theorem pedal_text {x : Option Str} (h : PlacementText x) :
    (x.map (fun t => if (parseEnum t : Core.AboveBelow) = .above then Api.Placement.above else Api.Placement.below)).getD .unspecified = readPlacement x := by
  rcases h with rfl | rfl | rfl <;> decide +kernel

/-! ### what the direction of the API says -/

/-- A mark of a direction with the given placement. -/
def MarkHas (p : Api.Placement) (m : MarkData) : Saying → Prop
  | .dynamics d => d ≠ .otherDynamics ∧ m.markType = MapName.dynamicsMap.toApi d
  | .otherDynamics t => m.markType = MapName.dynamicsMap.toApi Core.DynamicsEnum.otherDynamics ∧ m.name = t ∧ t ≠ [] ∧ ∀ d : Core.DynamicsEnum, t ≠ StringEnum.toStr d
  | .pedal t => m.positionData.placement = p ∧ ((t = .start ∧ m.markType = .pedal) ∨ (t = .stop ∧ m.markType = .damp))
  | _ => False

/-- The contents of a direction, kind by kind. -/
structure Holds (d : DirectionData) (marks wedgeStops wedgeStarts ottavaStops ottavaStarts tempos words : List Saying) : Prop where
  marks : List.Forall₂ (MarkHas d.placement) d.marks marks
  wedgeStops : wedgeStops = d.wedgeStops.map (fun _ => .wedge .stop)
  wedgeStarts : wedgeStarts = d.wedgeStarts.map (fun w => .wedge (wedgeTypeOf w.wedgeType))
  ottavaStops : ottavaStops = d.ottavaStops.map (fun _ => .octaveStop)
  ottavaStarts : ottavaStarts = d.ottavaStarts.map (fun o => .octave (ottavaParts o.ottavaType).1 (ottavaParts o.ottavaType).2)
  tempos : (∀ t ∈ d.tempos, t.tempoType = .beatsPerMinute) ∧
    tempos = d.tempos.map (fun t => .tempo (MapName.durationMap.toCore t.beatsPerMinute.durationName) t.beatsPerMinute.dots.toNat t.beatsPerMinute.beatsPerMinute)
  words : words = d.words.map (fun w => .words w.text)
  brackets : d.bracketStarts = []
  chords : d.chords = []

/-- Everything that a direction holds, and the words among it. -/
def HoldsAll (d : DirectionData) (said words : List Saying) : Prop := ∃ a b c e f g, Holds d a b c e f g words ∧ (a ++ b ++ c ++ e ++ f ++ g ++ words).Perm said

theorem orUndefined_ok {α : Type} {x : Option α} {y : α} (h : orUndefined x = .ok y) : x = some y := by
  cases x with
  | none => cases h
  | some z => exact congrArg some (Except.ok.inj h)

theorem bind_ok' {α β : Type} {x : Res α} {f : α → Res β} {y : β} (h : (x >>= f) = .ok y) : ∃ a, x = .ok a ∧ f a = .ok y := by
  cases x with
  | error e => cases h
  | ok a => exact ⟨a, rfl, h⟩

theorem mapM_forall₂ {α β : Type} {f : α → Option β} {l : List α} : ∀ {xs : List β}, l.mapM f = some xs → List.Forall₂ (fun a b => f a = some b) l xs := by
  induction l with
  | nil => intro xs h; cases h; exact .nil
  | cons a l ih =>
    intro xs h
    rw [List.mapM_cons] at h
    cases ha : f a with
    | none => rw [ha] at h; cases h
    | some b =>
      cases hl : l.mapM f with
      | none => rw [ha, hl] at h; cases h
      | some bs =>
        rw [ha, hl] at h
        cases h
        exact .cons ha (ih hl)

/-- One `<dynamics>` is read. -/
theorem dynamics_has {p : Api.Placement} {tick : Int} {x : DynamicsXml} {m : MarkData} {s : Saying} (hs : DynamicsSays x s) (hk : SayingKept s) (h : readDynamics tick x = some m) : MarkHas p m s := by
  unfold readDynamics at h
  obtain ⟨q, -, rfl⟩ := Option.map_eq_some_iff.mp h
  cases s with
  | dynamics d =>
    refine ⟨hk, ?_⟩
    have hc : x.child = StringEnum.toStr d := hs
    show MapName.dynamicsMap.toApi (readDynamicsValue x).enum = _
    rw [readDynamicsValue, hc, if_neg (dynamics_parse d hk).2, OpenValue.setText, (dynamics_parse d hk).1]
  | otherDynamics t =>
    obtain ⟨h1, rfl⟩ := hs
    have hv : readDynamicsValue x = { (OpenValue.ofEnum Core.DynamicsEnum.mf).setEnum OpenEnum.other with custom := x.text } := by
      rw [readDynamicsValue, if_pos h1, OpenValue.setText, dynamics_parse_none hk.2]
    refine ⟨?_, ?_, hk.1, hk.2⟩
    · show MapName.dynamicsMap.toApi (readDynamicsValue x).enum = _
      rw [hv]; rfl
    · show (readDynamicsValue x).valueString = _
      rw [hv]; rfl
  | _ => cases hs

theorem forall₂_trans {α β γ : Type} {R : α → β → Prop} {S : α → γ → Prop} {T : β → γ → Prop} {l : List α} {m : List β} {n : List γ} (h1 : List.Forall₂ R l m) (h2 : List.Forall₂ S l n)
    (h : ∀ a b c, c ∈ n → R a b → S a c → T b c) : List.Forall₂ T m n := by
  induction h1 generalizing n with
  | nil => cases h2; exact .nil
  | cons r _ ih =>
    cases h2 with
    | cons s ss => exact .cons (h _ _ _ List.mem_cons_self r s) (ih ss (fun a b c hc => h a b c (List.mem_cons_of_mem _ hc)))

theorem words_text {x : WordsXml} {w : WordsData} (h : readWords x = some w) : w.text = x.text := by
  unfold readWords at h
  simp only [Option.bind_eq_bind, Option.bind_eq_some_iff, Option.pure_def, Option.some.injEq] at h
  obtain ⟨_, _, _, _, rfl⟩ := h
  rfl

theorem words_texts {l : List WordsXml} {ws : List WordsData} (h : List.Forall₂ (fun a b => readWords a = some b) l ws) : ws.map (fun w => w.text) = l.map (fun w => w.text) := by
  induction h with
  | nil => rfl
  | cons hr _ ih => rw [List.map_cons, List.map_cons, ih, words_text hr]

/-- Only a part of the lists changes. -/
theorem perm_end {a b : List Saying} {said ss : List Saying} (h : (a ++ b).Perm said) : (a ++ ss ++ b).Perm (said ++ ss) := by
  have : (a ++ ss ++ b).Perm (a ++ b ++ ss) := by
    rw [List.append_assoc, List.append_assoc]
    exact List.Perm.append_left _ List.perm_append_comm
  exact this.trans (h.append_right _)

/-- One `<direction-type>` is read. -/
theorem type_has {e : Env} (he : PlacementText e.placement) {d d' : DirectionData} (hp : d.placement = readPlacement e.placement) {t : DirectionTypeXml} {said words ss : List Saying}
    (hd : HoldsAll d said words) (hs : TypeSays t ss) (hk : ∀ s ∈ ss, SayingKept s) (h : parseDirectionType e d t = .ok d') :
    HoldsAll d' (said ++ ss) (words ++ ss.filter Saying.isWords) ∧ d'.placement = d.placement ∧ d'.tickTimePosition = d.tickTimePosition ∧ d'.isStaffValueSpecified = d.isStaffValueSpecified := by
  obtain ⟨a, b, c, o, f, g, H, hperm⟩ := hd
  cases t with
  | dynamics l =>
    obtain ⟨ms, h1, h2⟩ := bind_ok' h
    cases h2
    have h3 := forall₂_trans (mapM_forall₂ (orUndefined_ok h1)) hs (T := MarkHas d.placement) (fun x m s hsm hr hsays => dynamics_has hsays (hk s hsm) hr)
    have hw : ss.filter Saying.isWords = [] := by
      rw [List.filter_eq_nil_iff]
      intro s hs'
      obtain ⟨i, hi⟩ := List.getElem?_of_mem hs'
      have hlt := (List.getElem?_eq_some_iff.mp hi).1
      have := h3.get (i := i) (by rw [h3.length_eq]; exact hlt) hlt
      rw [show ss.get ⟨i, hlt⟩ = s from (List.getElem?_eq_some_iff.mp hi).2] at this
      cases s with
      | words => exact absurd this (by simp [MarkHas])
      | _ => exact Bool.false_ne_true
    rw [hw, List.append_nil]
    refine ⟨⟨a ++ ss, b, c, o, f, g, { H with marks := List.rel_append H.marks h3 }, ?_⟩, rfl, rfl, rfl⟩
    simp only [List.append_assoc] at hperm ⊢
    rw [← List.append_assoc]
    exact perm_end hperm
  | words l =>
    obtain ⟨ws, h1, h2⟩ := bind_ok' h
    cases h2
    have hs' : ss = l.map (fun w => .words w.text) := hs
    have h3 : ws.map (fun w => w.text) = l.map (fun w => w.text) := words_texts (mapM_forall₂ (orUndefined_ok h1))
    have hw : ss.filter Saying.isWords = ss := by
      rw [List.filter_eq_self, hs']
      intro s hs
      obtain ⟨w, -, rfl⟩ := List.mem_map.mp hs
      rfl
    have h4 : ss = ws.map (fun w => Saying.words w.text) := by
      have := congrArg (List.map Saying.words) h3
      rw [List.map_map, List.map_map] at this
      rw [hs']; exact this.symm
    rw [hw]
    refine ⟨⟨a, b, c, o, f, g, { H with words := ?_ }, ?_⟩, rfl, rfl, rfl⟩
    · show words ++ ss = (d.words ++ ws).map _
      rw [List.map_append, ← H.words, h4]
    · rw [← List.append_assoc]
      exact hperm.append_right _
  | wedge w =>
    obtain ⟨t, rfl, ht, -⟩ := hs
    have hkt : t ≠ .continue_ := hk _ List.mem_cons_self
    have hw : [Saying.wedge t].filter Saying.isWords = [] := rfl
    rw [hw, List.append_nil]
    rw [parseDirectionType, ht, wedge_parse] at h
    by_cases hst : t = .stop
    · rw [if_pos hst] at h
      obtain ⟨w', h1, h2⟩ := bind_ok' h
      cases h2
      refine ⟨⟨a, b ++ [.wedge t], c, o, f, g, { H with wedgeStops := ?_ }, ?_⟩, rfl, rfl, rfl⟩
      · rw [H.wedgeStops, hst]; simp
      · have := perm_end (a := a ++ b) (b := c ++ o ++ f ++ g ++ words) (ss := [.wedge t]) (said := said) (by simpa only [List.append_assoc] using hperm)
        simpa only [List.append_assoc] using this
    · rw [if_neg hst] at h
      obtain ⟨w', h1, h2⟩ := bind_ok' h
      cases h2
      have hw' : w'.wedgeType = MapName.wedgeMap.toApi t := by
        have := orUndefined_ok h1
        unfold readWedgeStart at this
        simp only [Option.bind_eq_bind, Option.bind_eq_some_iff, Option.pure_def, Option.some.injEq] at this
        obtain ⟨_, _, _, _, _, _, rfl⟩ := this
        show MapName.wedgeMap.toApi (parseEnum w.type : Core.WedgeType) = _
        rw [ht, wedge_parse]
      refine ⟨⟨a, b, c ++ [.wedge t], o, f, g, { H with wedgeStarts := ?_ }, ?_⟩, rfl, rfl, rfl⟩
      · rw [H.wedgeStarts]; simp [hw', wedge_there t hkt hst]
      · have := perm_end (a := a ++ b ++ c) (b := o ++ f ++ g ++ words) (ss := [.wedge t]) (said := said) (by simpa only [List.append_assoc] using hperm)
        simpa only [List.append_assoc] using this
  | octaveShift x =>
    obtain ⟨-, hs⟩ := hs
    rw [parseDirectionType] at h
    rcases hs with ⟨rfl, ht⟩ | ⟨t, size, rfl, hst, ht, hsz⟩
    · have ht' : (parseEnum x.type : Core.UpDownStopContinue) = .stop := by rw [ht]; decide +kernel
      rw [ht', if_neg (by decide), if_pos rfl] at h
      obtain ⟨w', h1, h2⟩ := bind_ok' h
      cases h2
      have hw : [Saying.octaveStop].filter Saying.isWords = [] := rfl
      rw [hw, List.append_nil]
      refine ⟨⟨a, b, c, o ++ [.octaveStop], f, g, { H with ottavaStops := ?_ }, ?_⟩, rfl, rfl, rfl⟩
      · rw [H.ottavaStops]; simp
      · have := perm_end (a := a ++ b ++ c ++ o) (b := f ++ g ++ words) (ss := [.octaveStop]) (said := said) (by simpa only [List.append_assoc] using hperm)
        simpa only [List.append_assoc] using this
    · have hkt : (t = .up ∨ t = .down) ∧ (size = 8 ∨ size = 15) := hk _ List.mem_cons_self
      rw [ht, octave_parse, if_neg (by rcases hkt.1 with rfl | rfl <;> decide), if_neg hst] at h
      obtain ⟨w', h1, h2⟩ := bind_ok' h
      cases h2
      have hw' : w'.ottavaType = ottavaType t x.size := by
        have := orUndefined_ok h1
        unfold readOttavaStart at this
        simp only [Option.bind_eq_bind, Option.bind_eq_some_iff, Option.pure_def, Option.some.injEq] at this
        obtain ⟨_, _, _, _, _, _, rfl⟩ := this
        show ottavaType (parseEnum x.type) x.size = _
        rw [ht, octave_parse]
      have hw : [Saying.octave t size].filter Saying.isWords = [] := rfl
      rw [hw, List.append_nil]
      refine ⟨⟨a, b, c, o, f ++ [.octave t size], g, { H with ottavaStarts := ?_ }, ?_⟩, rfl, rfl, rfl⟩
      · rw [H.ottavaStarts]; simp [hw', octave_there hkt hsz]
      · have := perm_end (a := a ++ b ++ c ++ o ++ f) (b := g ++ words) (ss := [.octave t size]) (said := said) (by simpa only [List.append_assoc] using hperm)
        simpa only [List.append_assoc] using this
  | pedal x =>
    obtain ⟨t, rfl, ht⟩ := hs
    have hkt : t = .start ∨ t = .stop := hk _ List.mem_cons_self
    rw [parseDirectionType, ht, pedal_parse, if_pos hkt] at h
    obtain ⟨m, h1, h2⟩ := bind_ok' h
    cases h2
    have hw : [Saying.pedal t].filter Saying.isWords = [] := rfl
    rw [hw, List.append_nil]
    have hm : MarkHas d.placement m (.pedal t) := by
      have := orUndefined_ok h1
      unfold readPedal at this
      obtain ⟨q, -, rfl⟩ := Option.map_eq_some_iff.mp this
      refine ⟨?_, ?_⟩
      · show _ = d.placement
        rw [hp]; exact pedal_text he
      · rcases hkt with rfl | rfl
        · exact .inl ⟨rfl, rfl⟩
        · exact .inr ⟨rfl, rfl⟩
    refine ⟨⟨a ++ [.pedal t], b, c, o, f, g, { H with marks := List.rel_append H.marks (.cons hm .nil) }, ?_⟩, rfl, rfl, rfl⟩
    have := perm_end (a := a) (b := b ++ c ++ o ++ f ++ g ++ words) (ss := [.pedal t]) (said := said) (by simpa only [List.append_assoc] using hperm)
    simpa only [List.append_assoc] using this
  | metronome m =>
    cases m with
    | perMinute unit dots text =>
      obtain ⟨u, v, rfl, hu, hc⟩ := hs
      have hkt : INT_MIN ≤ v ∧ v ≤ INT_MAX := hk _ List.mem_cons_self
      have hr : readTempo (.perMinute unit dots text) = .ok { tempoType := .beatsPerMinute, beatsPerMinute := { durationName := MapName.durationMap.toApi (parseEnum unit : Core.NoteTypeValue), dots := (dots : Int), beatsPerMinute := v } } := by
        show (orUndefined (stringToInt text (-1)) >>= _) = _
        rw [((Props.C36_canonical_partial text (-1)).1 v).mpr ⟨hc, hkt⟩]
        rfl
      rw [parseDirectionType, hr] at h
      cases h
      have hw : [Saying.tempo u dots v].filter Saying.isWords = [] := rfl
      rw [hw, List.append_nil]
      refine ⟨⟨a, b, c, o, f, g ++ [.tempo u dots v], { H with tempos := ⟨?_, ?_⟩ }, ?_⟩, rfl, rfl, rfl⟩
      · intro t ht
        rcases List.mem_append.mp ht with ht | ht
        · exact H.tempos.1 t ht
        · rw [List.mem_singleton.mp ht]
      · rw [H.tempos.2]
        simp [hu, unit_there]
      · have := perm_end (a := a ++ b ++ c ++ o ++ f ++ g) (b := words) (ss := [.tempo u dots v]) (said := said) (by simpa only [List.append_assoc] using hperm)
        simpa only [List.append_assoc] using this
    | beatUnits => cases hs
    | noteRelation => cases hs
  | _ => cases hs


/-- All of them are read. -/
theorem types_has {e : Env} (he : PlacementText e.placement) {ts : List DirectionTypeXml} {sss : List (List Saying)} (hs : List.Forall₂ TypeSays ts sss) :
    ∀ {d d' : DirectionData} {said words : List Saying}, d.placement = readPlacement e.placement → HoldsAll d said words → (∀ s ∈ sss.flatten, SayingKept s) → ts.foldlM (parseDirectionType e) d = .ok d' →
    HoldsAll d' (said ++ sss.flatten) (words ++ sss.flatten.filter Saying.isWords) ∧ d'.placement = d.placement := by
  induction hs with
  | nil =>
    intro d d' said words _ hd _ h
    cases h
    simpa using hd
  | @cons t ss ts sss h1 hrest ih =>
    intro d d' said words hp hd hk h
    rw [List.foldlM_cons] at h
    obtain ⟨d1, h2, h3⟩ := bind_ok' h
    obtain ⟨k1, k2, -, -⟩ := type_has he hp hd h1 (fun s hs => hk s (by simp [hs])) h2
    obtain ⟨k3, k4⟩ := ih (k2.trans hp) k1 (fun s hs => hk s (by rw [List.flatten_cons]; exact List.mem_append_right _ hs)) h3
    refine ⟨?_, k4.trans k2⟩
    simpa only [List.flatten_cons, List.filter_append, List.append_assoc] using k3

/-! ### writing -/

theorem typesSay_nil : TypesSay [] [] := ⟨[], .nil, rfl⟩

theorem typesSay_append {a b : List DirectionTypeXml} {x y : List Saying} (h1 : TypesSay a x) (h2 : TypesSay b y) : TypesSay (a ++ b) (x ++ y) := by
  obtain ⟨p, p1, rfl⟩ := h1
  obtain ⟨q, q1, rfl⟩ := h2
  exact ⟨p ++ q, List.rel_append p1 q1, by simp⟩

theorem typesSay_one {a : DirectionTypeXml} {x : List Saying} (h : TypeSays a x) : TypesSay [a] x := ⟨[x], .cons h .nil, by simp⟩

/-- Elements that say one thing each. -/
theorem typesSay_map {α : Type} {f : α → Option DirectionTypeXml} {g : α → Saying} (h : ∀ a x, f a = some x → TypeSays x [g a]) {l : List α} {xs : List DirectionTypeXml} (hx : l.mapM f = some xs) :
    TypesSay xs (l.map g) := by
  replace hx := mapM_forall₂ hx
  induction hx with
  | nil => exact typesSay_nil
  | cons hr _ ih => exact typesSay_append (typesSay_one (h _ _ hr)) ih

theorem dynamics_text (d : Core.DynamicsEnum) (h : d = .otherDynamics) : StringEnum.toStr d = chars "other-dynamics" := by subst h; rfl

theorem mark_said {p : Api.Placement} {m : MarkData} {s : Saying} (hm : MarkHas p m s) {xs : List DirectionTypeXml} (h : writeMarkType m = some xs) : TypesSay xs [s] := by
  have dyn : isMarkDynamic m.markType = true → ∃ x, xs = [.dynamics [x]] ∧ writeDynamics m = some x := by
    intro hd
    rw [writeMarkType, if_pos hd] at h
    obtain ⟨y, hy, rfl⟩ := Option.map_eq_some_iff.mp h
    obtain ⟨x, hx, rfl⟩ := Option.map_eq_some_iff.mp hy
    exact ⟨x, rfl, hx⟩
  have parts : ∀ x, writeDynamics m = some x → x.child = StringEnum.toStr (dynamicsValue m).enum ∧ x.text = if (dynamicsValue m).enum = .otherDynamics then (dynamicsValue m).custom else [] := by
    intro x hx
    unfold writeDynamics at hx
    simp only [Option.bind_eq_bind, Option.bind_eq_some_iff, Option.pure_def, Option.some.injEq] at hx
    obtain ⟨_, _, _, _, rfl⟩ := hx
    exact ⟨rfl, rfl⟩
  cases s with
  | dynamics d =>
    obtain ⟨hd, ht⟩ := hm
    obtain ⟨x, rfl, hx⟩ := dyn (by rw [ht]; exact (dynamics_there d).2.1)
    refine typesSay_one (.cons ?_ .nil)
    show x.child = _
    have hv : (dynamicsValue m).enum = d := by
      unfold dynamicsValue
      simp only
      rw [ht, (dynamics_there d).1, if_neg (fun hc => hd hc.1), OpenValue.setEnum]
      split <;> rfl
    rw [(parts x hx).1, hv]
  | otherDynamics t =>
    obtain ⟨ht, hn, hne, hall⟩ := hm
    obtain ⟨x, rfl, hx⟩ := dyn (by rw [ht]; exact (dynamics_there _).2.1)
    refine typesSay_one (.cons ?_ .nil)
    show x.child = _ ∧ _
    have hv : (dynamicsValue m).enum = .otherDynamics ∧ (dynamicsValue m).custom = t := by
      unfold dynamicsValue
      simp only
      rw [ht, (dynamics_there _).1, if_pos ⟨rfl, by rw [hn]; exact hne⟩, OpenValue.setText, hn, dynamics_parse_none hall]
      exact ⟨rfl, rfl⟩
    rw [(parts x hx).1, (parts x hx).2, hv.1, if_pos rfl]
    exact ⟨rfl, hv.2⟩
  | pedal t =>
    obtain ⟨-, h2⟩ := hm
    have hd : isMarkDynamic m.markType = false ∧ isMarkPedal m.markType = true := by
      rcases h2 with ⟨-, h2⟩ | ⟨-, h2⟩ <;> rw [h2] <;> decide
    rw [writeMarkType, if_neg (by rw [hd.1]; decide), if_pos hd.2] at h
    obtain ⟨y, hy, rfl⟩ := Option.map_eq_some_iff.mp h
    obtain ⟨x, hx, rfl⟩ := Option.map_eq_some_iff.mp hy
    refine typesSay_one ⟨t, rfl, ?_⟩
    rcases h2 with ⟨rfl, h2⟩ | ⟨rfl, h2⟩ <;> rw [h2] <;> rfl
  | _ => cases hm

theorem marks_said {p : Api.Placement} {l : List MarkData} {ss : List Saying} (hm : List.Forall₂ (MarkHas p) l ss) {xs : List (List DirectionTypeXml)} (h : l.mapM writeMarkType = some xs) : TypesSay xs.flatten ss := by
  replace h := mapM_forall₂ h
  induction h generalizing ss with
  | nil => cases hm; exact typesSay_nil
  | cons hr _ ih =>
    cases hm with
    | cons h1 h2 => exact typesSay_append (x := [_]) (mark_said h1 hr) (ih h2)

theorem wedgeStop_said {w : WedgeStop} {x : DirectionTypeXml} (h : writeWedgeStop w = some x) : TypeSays x [.wedge .stop] := by
  unfold writeWedgeStop at h
  simp only [Option.bind_eq_bind, Option.bind_eq_some_iff, Option.pure_def, Option.some.injEq] at h
  obtain ⟨_, _, _, _, rfl⟩ := h
  exact ⟨_, rfl, rfl, .inl rfl⟩

theorem wedgeStart_said {w : WedgeStart} {x : DirectionTypeXml} (h : writeWedgeStart w = some x) : TypeSays x [.wedge (wedgeTypeOf w.wedgeType)] := by
  unfold writeWedgeStart at h
  simp only [Option.bind_eq_bind, Option.bind_eq_some_iff, Option.pure_def, Option.some.injEq] at h
  obtain ⟨_, _, _, _, _, _, rfl⟩ := h
  exact ⟨_, rfl, rfl, .inl rfl⟩

theorem ottavaStart_said {o : OttavaStart} {x : DirectionTypeXml} (h : writeOttavaStart o = some x) : TypeSays x [.octave (ottavaParts o.ottavaType).1 (ottavaParts o.ottavaType).2] := by
  unfold writeOttavaStart at h
  obtain ⟨_, _, rfl⟩ := Option.map_eq_some_iff.mp h
  refine ⟨.inl rfl, .inr ⟨_, _, rfl, ?_, rfl, .inr ⟨_, rfl, bounded_says ?_⟩⟩⟩
  · cases o.ottavaType <;> decide
  · cases o.ottavaType <;> decide

theorem ottavaStops_said (l : List SpannerStop) : TypesSay (l.map writeOttavaStop) (l.map (fun _ => .octaveStop)) := by
  induction l with
  | nil => exact typesSay_nil
  | cons a l ih => exact typesSay_append (a := [_]) (x := [_]) (typesSay_one ⟨.inl rfl, .inl ⟨rfl, rfl⟩⟩) ih

theorem tempos_said : ∀ {l : List TempoData} {xs : List DirectionTypeXml}, l.mapM writeTempo = .ok xs →
    TypesSay xs (l.map (fun t => .tempo (MapName.durationMap.toCore t.beatsPerMinute.durationName) t.beatsPerMinute.dots.toNat t.beatsPerMinute.beatsPerMinute)) := by
  intro l
  induction l with
  | nil => intro xs h; cases h; exact typesSay_nil
  | cons t l ih =>
    intro xs h
    rw [List.mapM_cons] at h
    obtain ⟨x, h1, h2⟩ := bind_ok' h
    obtain ⟨ys, h3, h4⟩ := bind_ok' h2
    cases h4
    unfold writeTempo at h1
    split at h1
    · cases h1
    · cases h1
      exact typesSay_append (a := [_]) (x := [_]) (typesSay_one ⟨_, _, rfl, rfl, (canonical_iff _ _).mpr rfl⟩) (ih h3)

theorem writeWords_text {x : WordsXml} {w : WordsData} (h : writeWords w = some x) : x.text = w.text := by
  unfold writeWords at h
  simp only [Option.bind_eq_bind, Option.bind_eq_some_iff, Option.pure_def, Option.some.injEq] at h
  obtain ⟨_, _, _, _, rfl⟩ := h
  rfl

theorem words_said {l : List WordsData} {xs : List DirectionTypeXml} (h : writeWordsType l = some xs) : TypesSay xs (l.map (fun w => .words w.text)) := by
  unfold writeWordsType at h
  cases l with
  | nil => cases h; exact typesSay_nil
  | cons w l =>
    rw [if_pos (by simp)] at h
    obtain ⟨ys, h1, rfl⟩ := Option.map_eq_some_iff.mp h
    have h2 := mapM_forall₂ h1
    have h3 : (w :: l).map (fun w => Saying.words w.text) = ys.map (fun x => Saying.words x.text) := by
      clear h h1
      generalize w :: l = k at h2
      induction h2 with
      | nil => rfl
      | cons hr _ ih => rw [List.map_cons, List.map_cons, ih, writeWords_text hr]
    cases h2 with
    | @cons _ y _ ys _ _ =>
      have : ((y :: ys).foldl addWords ([{}], false)) = (y :: ys, true) := by
        rw [List.foldl_cons]
        show ys.foldl addWords ([y], true) = _
        rw [addWords_fold]; rfl
      rw [h3]
      simp only [this, if_true]
      exact typesSay_one rfl

/-- What is written says what the direction holds. -/
theorem directionTypes_said {d : DirectionData} {a b c o f g w : List Saying} (H : Holds d a b c o f g w) {ts : List DirectionTypeXml} (h : directionTypes d = .ok ts) :
    TypesSay ts (a ++ b ++ c ++ o ++ f ++ g ++ w) := by
  unfold directionTypes at h
  obtain ⟨ms, h1, h⟩ := bind_ok' h
  obtain ⟨ws, h2, h⟩ := bind_ok' h
  obtain ⟨wt, h3, h⟩ := bind_ok' h
  obtain ⟨os, h4, h⟩ := bind_ok' h
  obtain ⟨te, h5, h⟩ := bind_ok' h
  obtain ⟨wo, h6, h⟩ := bind_ok' h
  cases h
  rw [H.brackets, List.map_nil, List.append_nil, H.wedgeStops, H.wedgeStarts, H.ottavaStops, H.ottavaStarts, H.tempos.2, H.words]
  refine typesSay_append (typesSay_append (typesSay_append (typesSay_append (typesSay_append (typesSay_append (marks_said H.marks (orUndefined_ok h1)) ?_) ?_) (ottavaStops_said _)) ?_) (tempos_said h5)) (words_said (orUndefined_ok h6))
  · exact typesSay_map (fun _ _ => wedgeStop_said) (orUndefined_ok h2)
  · exact typesSay_map (fun _ _ => wedgeStart_said) (orUndefined_ok h3)
  · exact typesSay_map (fun _ _ => ottavaStart_said) (orUndefined_ok h4)

/-- Pedals do not change the placement. -/
theorem placement_marks {p : Api.Placement} {l : List MarkData} {ss : List Saying} (hm : List.Forall₂ (MarkHas p) l ss) : l.foldl placementStep (placementText p) = placementText p := by
  induction hm with
  | nil => rfl
  | @cons m s l ss h1 _ ih =>
    have : placementStep (placementText p) m = placementText p := by
      unfold placementStep
      split
      · next hc =>
        cases s with
        | dynamics d => rw [h1.2, (dynamics_there d).2.2] at hc; exact absurd hc.1 (by decide)
        | otherDynamics t => rw [h1.1, (dynamics_there _).2.2] at hc; exact absurd hc.1 (by decide)
        | pedal t => rw [h1.1]
        | _ => cases h1
      · rfl
    rw [List.foldl_cons, this, ih]

/-- Nothing that is said is empty of elements. -/
theorem typesSay_ne {ts : List DirectionTypeXml} {said : List Saying} (h : TypesSay ts said) (hn : said ≠ []) : ts ≠ [] := by
  rintro rfl
  obtain ⟨sss, h1, rfl⟩ := h
  cases h1
  exact hn rfl

/-- No words apart from those in their own list. -/
theorem holds_words {d : DirectionData} {a b c o f g w : List Saying} (H : Holds d a b c o f g w) : (a ++ b ++ c ++ o ++ f ++ g ++ w).filter Saying.isWords = w := by
  have ha : a.filter Saying.isWords = [] := by
    have hf := H.marks
    clear H
    generalize d.marks = k at hf
    induction hf with
    | nil => rfl
    | @cons m s _ _ h1 _ ih =>
      cases s with
      | words => cases h1
      | _ => exact ih
  have hm : ∀ {α : Type} (l : List α) (F : α → Saying), (∀ x, (F x).isWords = false) → (l.map F).filter Saying.isWords = [] := by
    intro α l F hF
    rw [List.filter_eq_nil_iff]
    intro s hs
    obtain ⟨x, -, rfl⟩ := List.mem_map.mp hs
    rw [hF x]; exact Bool.false_ne_true
  have hw : w.filter Saying.isWords = w := by
    rw [List.filter_eq_self, H.words]
    intro s hs
    obtain ⟨x, -, rfl⟩ := List.mem_map.mp hs
    rfl
  simp only [List.filter_append, ha, hw]
  rw [H.wedgeStops, H.wedgeStarts, H.ottavaStops, H.ottavaStarts, H.tempos.2, hm _ _ (fun _ => rfl), hm _ _ (fun _ => rfl), hm _ _ (fun _ => rfl), hm _ _ (fun _ => rfl), hm _ _ (fun _ => rfl)]
  rfl

theorem direction_said {cursor cursor' staffIndex : Int} {x : DirectionXml} {said : List Saying} (hs : TypesSay x.types said) (hk : ∀ s ∈ said, SayingKept s) (hn : said ≠ []) (hp : PlacementText x.placement)
    {d : DirectionData} (hr : readDirection cursor x = .ok d) {l : List ElementXml} {staffSaid : Bool}
    (hw : getDirectionLikeThings staffIndex cursor' { d with isStaffValueSpecified := staffSaid } = .ok l) :
    ∃ x' said', l = [.direction x'] ∧ TypesSay x'.types said' ∧ said'.Perm said ∧ said'.filter Saying.isWords = said.filter Saying.isWords ∧ x'.placement = x.placement := by
  obtain ⟨sss, hs, rfl⟩ := hs
  unfold readDirection at hr
  obtain ⟨tick, -, hr⟩ := bind_ok' hr
  obtain ⟨⟨a, b, c, o, f, g, H, hperm⟩, hpl⟩ := types_has (e := { cursorTick := cursor, tick := tick, placement := x.placement }) hp hs (said := []) (words := []) rfl
    ⟨[], [], [], [], [], [], { marks := .nil, wedgeStops := rfl, wedgeStarts := rfl, ottavaStops := rfl, ottavaStarts := rfl, tempos := ⟨by simp, rfl⟩, words := rfl, brackets := rfl, chords := rfl }, .refl _⟩ hk hr
  rw [List.nil_append] at H hperm
  unfold getDirectionLikeThings at hw
  obtain ⟨off, -, hw⟩ := bind_ok' hw
  obtain ⟨o', -, hw⟩ := bind_ok' hw
  obtain ⟨ts, ht, hw⟩ := bind_ok' hw
  obtain ⟨hm, hh, hw⟩ := bind_ok' hw
  have H' : Holds { d with isStaffValueSpecified := staffSaid } a b c o f g _ := ⟨H.marks, H.wedgeStops, H.wedgeStarts, H.ottavaStops, H.ottavaStarts, H.tempos, H.words, H.brackets, H.chords⟩
  have hsaid := directionTypes_said H' ht
  have hne : ts ≠ [] := typesSay_ne hsaid (fun h0 => hn (by rw [h0] at hperm; simpa using hperm.symm))
  have hhm : hm = [] := by
    have := orUndefined_ok hh
    unfold createHarmony at this
    rw [H'.chords] at this
    exact (Option.some.inj this).symm
  rw [types_kept, if_neg hne] at hw
  cases hw
  subst hhm
  refine ⟨_, _, rfl, hsaid, ?_, holds_words H, ?_⟩
  · simpa using hperm
  · show d.marks.foldl placementStep (placementText d.placement) = _
    rw [placement_marks H.marks, hpl]
    exact placement_text hp

end Mx.Directions
