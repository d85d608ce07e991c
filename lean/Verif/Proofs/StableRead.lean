import Verif.Proofs.StableLyric

/-
Whole elements in good order.
-/
open Mx.Spec
namespace Mx.Content

def RProg.plainB : RProg → Bool
  | .credit => false
  | .arrow => false
  | _ => true

set_option maxRecDepth 100000 in
theorem prog_plain {c : Cls} (h1 : c ≠ .Credit) (h2 : c ≠ .Arrow) : prog c ≠ .credit ∧ prog c ≠ .arrow := by
  have h : allCls.all (fun c => (prog c).plainB || decide (c = .Credit) || decide (c = .Arrow)) = true := by decide +kernel
  have h := List.all_eq_true.mp h c (mem_allCls c)
  simp only [Bool.or_eq_true, decide_eq_true_eq, h1, h2, or_false] at h
  constructor <;> intro e <;> rw [e] at h <;> cases h

theorem clear_prog {c : Cls} {self : Child} (hself : Calm self) {data d : Str} (hg : Gives self data) {kids : List Child} (hl : Calms kids) {k : Nat} {ss : List Slot} (hi : Is (.comp c) (.comp c d k ss))
    (hc : Clear (.comp c d k ss)) (ha : Allowed self.name (.comp c d k ss)) (hn : self.name = nm! "notehead-text" → data = []) (ho : self.name = nm! "lyric" → orderB (kids.map (·.name)) = true)
    (hok : ((prog c).run self kids (.comp c data k ss)).2 = true) : Clear ((prog c).run self kids (.comp c data k ss)).1 := by
  have hi' : Is (.comp c) (.comp c data k ss) := by
    obtain ⟨h1, _⟩ := hi
    cases h1 with
    | comp _ _ _ _ hs hks => exact ⟨.comp c data k ss hs hks, rfl⟩
  have hd : Deep (.comp c data k ss) := (clear_deep hc : Deep (.comp c d k ss))
  have hres := is_progRun (prog_fits c) hself.steady (calms_steadies hl) hi'
  by_cases h1 : c = .Credit
  · subst h1
    have e := ha.2.2 rfl
    have e2 : make (.comp .Credit) = .comp .Credit [] 0 [.mk false [], .mk false [], .mk false [], .mk false [make (.comp .CreditChoice)]] := rfl
    rw [e2] at e
    cases e
    refine clear_readCredit hself.steady hg hi' rfl ?_ (calms_steadies hl)
    intro q hq
    have hq : q ∈ [make (.comp .CreditChoice)] := hq
    rw [List.mem_singleton] at hq
    subst hq
    rfl
  by_cases h2 : c = .Arrow
  · subst h2
    refine clear_arrow hres (choice_readArrow hself.steady hi' (calms_steadies hl) ?_)
    cases hc with
    | comp _ _ _ _ h _ => exact Nat.eq_of_beq_eq_true h
  have hp := prog_plain h1 h2
  have hdeep := deep_progRun (prog_fits c) (prog_calm c) hp.1 hp.2 hself hl hi' hd hok
  cases hs : simpleB c with
  | true => exact clear_of_deep hres.2 hs hdeep
  | false =>
    cases c <;> first
      | (cases hs; done)
      | (cases hok; done)
      | skip
    case Credit => exact absurd rfl h1
    case Arrow => exact absurd rfl h2
    case Note => exact clear_off 14 (fun _ _ _ => rfl) hres.2 hdeep ((isOn_eq (keep_loop hself.steady (by decide +kernel) (by decide +kernel) hi' hl hok)).trans (off_clear 14 (fun _ _ _ => rfl) hc))
    case Sound => exact clear_off 2 (fun _ _ _ => rfl) hres.2 hdeep ((isOn_eq (keep_loop hself.steady (by decide +kernel) (by decide +kernel) hi' hl hok)).trans (off_clear 2 (fun _ _ _ => rfl) hc))
    case MetronomeTuplet => exact clear_off 2 (fun _ _ _ => rfl) hres.2 hdeep ((isOn_eq (keep_loop hself.steady (by decide +kernel) (by decide +kernel) hi' hl hok)).trans (off_clear 2 (fun _ _ _ => rfl) hc))
    case DirectionType =>
      refine clear_direction hres.2 ?_ hdeep
      have hk := direction_clear (d' := data) hc
      revert hok
      show (r_DirectionType.run self kids _).2 = true → choiceOf (r_DirectionType.run self kids _).1 ≠ 20
      cases kids with
      | nil => exact fun _ => hk
      | cons x xs => exact chooses_runBody hself.steady _ (by decide +kernel) (by decide +kernel) hi' hl hk
    case NoteheadText =>
      have hdata := hn (ha.1 rfl)
      subst hdata
      refine clear_text ?_ hdeep
      refine text_readLoop hg ?_ _ (text_clear hc)
      intro s hs
      simp only [List.mem_cons, List.not_mem_nil, or_false] at hs
      rcases hs with rfl | rfl
      · exact ⟨_, 1, rfl, .inr rfl⟩
      · exact ⟨_, 0, rfl, .inl rfl⟩
    case Lyric =>
      have e := (ha.2.1 rfl).2
      have ho := ho (ha.2.1 rfl).1
      refine clear_lyric hres ?_ hdeep
      have hinv : LyricInv (.comp .Lyric data k ss) := by
        have e2 : make (.comp .Lyric) = .comp .Lyric [] 0 (match make (.comp .Lyric) with | .comp _ _ _ ss => ss | _ => []) := rfl
        rw [e2] at e
        cases e
        exact lyric_new data
      have hsil : Silent (.comp .Lyric data k ss) := by
        have e2 : make (.comp .Lyric) = .comp .Lyric [] 0 (match make (.comp .Lyric) with | .comp _ _ _ ss => ss | _ => []) := rfl
        rw [e2] at e
        cases e
        exact ⟨rfl, rfl⟩
      have hok : (r_Lyric.run self kids (.comp .Lyric data k ss)).2 = true := hok
      simp only [r_Lyric, RProg.run, Bool.and_eq_true] at hok
      exact lyric_loop hself.steady _ hi' hinv (.inl hsil) ho (calms_steadies hl) hok.1.2

theorem gives_readInto (name : Nat) (data : Str) (kids : List Child) (l : Nat) : Gives ⟨name, readInto prog name data kids l⟩ data := by
  intro t h x
  show readInto prog name data kids l (.leaf t h x) = _
  rw [readInto]

theorem calm_readInto {name : Nat} {data : Str} {kids : List Child} (hl : Calms kids) (h0 : name ≠ 0) (hk : name ≠ nm! "other-notations") (hn : name = nm! "notehead-text" → data = [])
    (ho : name = nm! "lyric" → orderB (kids.map (·.name)) = true) : ∀ (l : Nat), Calm ⟨name, readInto prog name data kids l⟩
  | 0 => by
    refine ⟨fun kd n hn => is_readInto (calms_steadies hl) 0 hn, ?_, ?_, h0, hk⟩
    · intro kd n hi hc ha hok
      cases n with
      | leaf t h d => exact .leaf _ _ _
      | comp c d k ss => cases hok
    · intro kd n hi hd
      cases n with
      | leaf t h d => rcases hd with ⟨h, _⟩ | ⟨h, _⟩ <;> cases h
      | comp c d k ss => rfl
  | l + 1 => by
    have ih := calm_readInto hl h0 hk hn ho l
    refine ⟨fun kd n hn => is_readInto (calms_steadies hl) (l + 1) hn, ?_, ?_, h0, hk⟩
    · intro kd n hi hc ha hok
      cases n with
      | leaf t h d => exact .leaf _ _ _
      | comp c d k ss =>
        have hkd := hi.2
        subst hkd
        simp only [readInto] at hok ⊢
        exact clear_prog ih (gives_readInto name data kids l) hl hi hc ha hn ho hok
    · intro kd n hi hd
      cases n with
      | leaf t h d => rcases hd with ⟨h, _⟩ | ⟨h, _⟩ <;> cases h
      | comp c d k ss =>
        simp only [readInto]
        rcases hd with ⟨h, e⟩ | ⟨h, e⟩
        · cases h
          have e : name = nm! "play" := e
          subst e
          rfl
        · cases h
          have e : name = nm! "percussion" := e
          subst e
          show (r_Percussion.run _ kids _).2 = false
          simp only [r_Percussion, RProg.run, Option.map_some, Option.getD_some, Node.inner]
          cases hk : (Node.comp Cls.Percussion data k ss).kid? 0 with
          | none => simp
          | some y =>
            have hkd := hi.2
            subst hkd
            have hy : ∃ s, ss[0]? = some s ∧ s.kids.head? = some y := kid_of hk
            obtain ⟨s, hs0, hs1⟩ := hy
            have hk2 : (Node.comp Cls.Percussion d k ss).kid? 0 = some y := by simp only [Node.kid?, hs0, Option.bind_some, hs1]
            obtain ⟨m, hm, hy⟩ := is_kid hi hk2
            cases hm
            obtain ⟨d2, k2, ss2, rfl, _, _⟩ := is_comp hy
            have : (readInto prog (nm! "percussion") data kids l (.comp .PercussionChoice d2 k2 ss2)).2 = false := by
              cases l with
              | zero => rfl
              | succ l => rfl
            simp only [this, Bool.false_and]

theorem names_list : ∀ (l : List Xml), (childList prog l).map (·.name) = l.map xmlName
  | [] => rfl
  | .elem n d k :: xs => by
    rw [childList, List.map_cons, List.map_cons, names_list xs]
    rfl

mutual
theorem calm_child : ∀ (x : Xml), Tidy x → Calm (x.child prog)
  | .elem name data kids, h => by
    have hkids : ∀ h : ∀ x ∈ kids, Tidy x, Calms (childList prog kids) := fun h => calm_list kids h
    cases h with
    | elem _ _ _ ht hk =>
      rw [Xml.child]
      refine calm_readInto (hkids hk) ht.named ht.known ht.text ?_ 4
      intro he
      rw [names_list]
      exact ht.lyric he
theorem calm_list : ∀ (l : List Xml), (∀ x ∈ l, Tidy x) → Calms (childList prog l)
  | [], _ => by intro y hy; simp [childList] at hy
  | x :: xs, h => by
    have h1 := calm_child x (h x (by simp))
    have h2 := calm_list xs fun y hy => h y (by simp [hy])
    intro y hy
    rw [childList, List.mem_cons] at hy
    rcases hy with rfl | hy
    · exact h1
    · exact h2 y hy
end

/-- A new object that is read from an element in good order is in good order. -/
theorem clear_read {c : Cls} {x : Xml} (hx : Tidy x) (ha : Allowed (x.child prog).name (make (.comp c))) (hok : ((x.child prog).read (make (.comp c))).2 = true) : Clear ((x.child prog).read (make (.comp c))).1 :=
  (calm_child x hx).clear _ _ (is_make_comp c) (clear_make _) ha hok

end Mx.Content
