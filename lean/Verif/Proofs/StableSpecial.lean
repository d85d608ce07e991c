import Verif.Proofs.StableMain
import Verif.Proofs.ReaderSpecialI

/-
The classes with conditions on their own objects: notes, sounds, directions, metronome tuplets, arrows, notehead texts, credits.
-/
open Mx.Spec
namespace Mx.Content

/-! ## Members that are never read -/

/-- The statement that reads the member `j` never does. -/
def RStmt.idleB (c : Cls) (j : Nat) : RStmt → Bool
  | .elem name i _ => Nat.beq i j && (Nat.beq name 0 || (memberB c j (fun g => decide (g = .Play)) && Nat.beq name (nm! "play")))
  | _ => false

def RStmt.keepB (c : Cls) (j : Nat) (s : RStmt) : Bool := !s.touch.contains j || s.idleB c j

theorem keep_at {c : Cls} {self : Child} {o : Node} (h : Is (.comp c) o) {x : Child} {xs : List Child} (hl : Calms (x :: xs)) {s : RStmt} {j : Nat} (hb : s.keepB c j = true)
    (hok : (s.at self o x xs).ok = true) : (s.at self o x xs).obj.slotAt? j = o.slotAt? j := by
  obtain ⟨hx, hxs⟩ := calms_cons hl
  rw [RStmt.keepB, Bool.or_eq_true] at hb
  rcases hb with hb | hb
  · refine frame_at ?_ self o x xs
    simpa using hb
  · unfold RStmt.idleB at hb
    split at hb
    · rename_i name i next
      rw [Bool.and_eq_true, Bool.or_eq_true, Bool.and_eq_true] at hb
      obtain ⟨hij, hn⟩ := hb
      have := Nat.eq_of_beq_eq_true hij
      subst this
      revert hok
      simp only [RStmt.at]
      split
      · rename_i he
        have he := Nat.eq_of_beq_eq_true he
        rcases hn with hn | ⟨hm, hn⟩
        · exact absurd (he.trans (Nat.eq_of_beq_eq_true hn)) hx.name
        · obtain ⟨g, mu, hm', hg⟩ := memberB_comp hm
          have hg : g = .Play := by simpa using hg
          subst hg
          simp only [Node.inner]
          cases hk : o.kid? i with
          | none => exact fun _ => rfl
          | some y =>
            intro hok
            obtain ⟨m, hm2, hy⟩ := is_kid h hk
            rw [hm'] at hm2
            cases hm2
            have := hx.deaf _ y hy (.inl ⟨hy.2, he.trans (Nat.eq_of_beq_eq_true hn)⟩)
            simp only at hok
            rw [this] at hok
            cases hok
      · exact fun _ => rfl
    · cases hb

theorem keep_runBody {c : Cls} {self : Child} (hself : Steady self) {j : Nat} : ∀ (ss : List RStmt) {o : Node} {l : List Child}, ss.all (RStmt.fitsB c) = true → ss.all (RStmt.keepB c j) = true → Is (.comp c) o → Calms l →
    (runBody self ss o l).ok = true → (runBody self ss o l).obj.slotAt? j = o.slotAt? j
  | [], o, l, _, _, _, _, _ => by simp [runBody, idle]
  | s :: ss, o, [], _, _, _, _, _ => by simp [runBody, idle]
  | s :: ss, o, x :: xs, hf, hb, h, hl, hok => by
    simp only [List.all_cons, Bool.and_eq_true] at hf hb
    have h1 := is_at hself h (calms_steadies hl) s hf.1
    have h2 := keep_at (self := self) h hl hb.1
    revert hok
    rw [runBody]
    split
    · exact h2
    · intro hok
      rw [Bool.and_eq_true] at hok
      exact (keep_runBody hself ss hf.2 hb.2 h1 (calms_drop hl _) hok.2).trans (h2 hok.1)

theorem keep_readLoop {c : Cls} {self : Child} (hself : Steady self) {j : Nat} {body : List RStmt} (hf : body.all (RStmt.fitsB c) = true) (hb : body.all (RStmt.keepB c j) = true) {strict : Bool} : ∀ (f : Nat) {o : Node} {l : List Child},
    Is (.comp c) o → Calms l → (readLoop self body strict f o l).2 = true → (readLoop self body strict f o l).1.slotAt? j = o.slotAt? j
  | _, o, [], _, _, _ => by simp [readLoop]
  | 0, o, _ :: _, _, _, _ => by simp [readLoop]
  | f + 1, o, x :: xs, h, hl, hok => by
    rw [readLoop] at hok ⊢
    simp only [Bool.and_eq_true] at hok
    exact (keep_readLoop hself hf hb f (is_runBody hself body hf h (calms_steadies hl)) (calms_drop (calms_cons hl).2 _) hok.2).trans (keep_runBody hself body hf hb h hl hok.1.1)

/-- The member `j` is as before. -/
theorem keep_loop {c : Cls} {body : List RStmt} {strict : Bool} {need : List Nat} {self : Child} (hself : Steady self) {j : Nat} (hf : body.all (RStmt.fitsB c) = true) (hb : body.all (RStmt.keepB c j) = true) {o : Node} {l : List Child}
    (h : Is (.comp c) o) (hl : Calms l) (hok : ((RProg.loop none body strict need).run self l o).2 = true) : ((RProg.loop none body strict need).run self l o).1.slotAt? j = o.slotAt? j := by
  simp only [RProg.run, Bool.and_eq_true] at hok ⊢
  exact keep_readLoop hself hf hb _ h hl hok.1.2

theorem clear_off {c : Cls} {o : Node} (j : Nat) (hh : ∀ d k ss, hereB c d k ss = !onAt ss j) (h : o.kind = .comp c) (hd : Deep o) (hj : o.isOn j = false) : Clear o := by
  cases o with
  | leaf => cases h
  | comp c' d k ss =>
    cases h
    refine .comp _ _ _ _ ?_ hd
    rw [hh, Bool.not_eq_true']
    exact hj

theorem off_clear {c : Cls} {d d' : Str} {k : Nat} {ss : List Slot} (j : Nat) (hh : ∀ d k ss, hereB c d k ss = !onAt ss j) (h : Clear (.comp c d k ss)) : (Node.comp c d' k ss).isOn j = false := by
  cases h with
  | comp _ _ _ _ h1 _ =>
    rw [hh, Bool.not_eq_true'] at h1
    exact h1

/-! ## Directions -/

def RStmt.choosesB (c : Cls) : RStmt → Bool
  | .own fs => fs.all fun f => match f.2.2 with
    | some k => !Nat.beq k 20
    | none => false
  | .ownSet name i k => !Nat.beq k 20 || (memberB c i (fun g => decide (g = .Percussion)) && isSetB c i && Nat.beq name (nm! "percussion"))
  | _ => false

theorem chooses_at {c : Cls} {self : Child} {o : Node} (h : Is (.comp c) o) {x : Child} {xs : List Child} (hl : Calms (x :: xs)) {s : RStmt} (hb : s.choosesB c = true)
    (hc : choiceOf o ≠ 20) (hok : (s.at self o x xs).ok = true) : choiceOf (s.at self o x xs).obj ≠ 20 := by
  obtain ⟨hx, hxs⟩ := calms_cons hl
  cases s with
  | own fs =>
    simp only [RStmt.at]
    cases hf : field fs x.name with
    | none => exact hc
    | some f =>
      obtain ⟨p, hp, rfl, _⟩ := field_named hf
      have h3 := List.all_eq_true.mp hb p hp
      obtain ⟨a, b, ck⟩ := p
      cases ck with
      | none => cases h3
      | some k =>
        show choiceOf ((o.inner b x.read).1.choose (some k)) ≠ 20
        rw [choiceOf_choose (is_inner h fun m _ n hn => hx.steady m.kind n hn).2 k]
        intro e
        subst e
        cases h3
  | ownSet name i k =>
    revert hok
    simp only [RStmt.at]
    split
    · rename_i he
      intro hok
      have hkind : (o.addRun i (((runItems name (x :: xs)).map fun y => y.read (o.newItem i)).map (·.1))).kind = .comp c := by
        obtain ⟨d, k', ss, rfl, _, _⟩ := is_comp h
        rfl
      rw [choiceOf_choose hkind]
      rw [RStmt.choosesB, Bool.or_eq_true] at hb
      rcases hb with hb | hb
      · intro e
        subst e
        cases hb
      · rw [Bool.and_eq_true, Bool.and_eq_true] at hb
        obtain ⟨g, mu, hm', hg⟩ := memberB_comp hb.1.1
        have hg : g = .Percussion := by simpa using hg
        subst hg
        rw [Bool.and_eq_true] at hok
        have hxr : x ∈ runItems name (x :: xs) := by simp [runItems, List.takeWhile_cons, he]
        have h1 := List.all_eq_true.mp hok.1 _ (List.mem_map_of_mem hxr)
        rw [hx.deaf _ _ (is_newItem h hm') (.inr ⟨(is_newItem h hm').2, (Nat.eq_of_beq_eq_true he).trans (Nat.eq_of_beq_eq_true hb.2)⟩)] at h1
        cases h1
    · exact fun _ => hc
  | _ => cases hb

theorem chooses_runBody {c : Cls} {self : Child} (hself : Steady self) : ∀ (ss : List RStmt) {o : Node} {l : List Child}, ss.all (RStmt.fitsB c) = true → ss.all (RStmt.choosesB c) = true → Is (.comp c) o → Calms l →
    choiceOf o ≠ 20 → (runBody self ss o l).ok = true → choiceOf (runBody self ss o l).obj ≠ 20
  | [], o, l, _, _, _, _, h, _ => by simpa [runBody, idle] using h
  | s :: ss, o, [], _, _, _, _, h, _ => by simpa [runBody, idle] using h
  | s :: ss, o, x :: xs, hf, hb, h, hl, hc, hok => by
    simp only [List.all_cons, Bool.and_eq_true] at hf hb
    have h1 := is_at hself h (calms_steadies hl) s hf.1
    have h2 := chooses_at (self := self) h hl hb.1 hc
    revert hok
    rw [runBody]
    split
    · exact h2
    · intro hok
      rw [Bool.and_eq_true] at hok
      exact chooses_runBody hself ss hf.2 hb.2 h1 (calms_drop hl _) (h2 hok.1) hok.2

theorem clear_direction {o : Node} (h : o.kind = .comp .DirectionType) (hc : choiceOf o ≠ 20) (hd : Deep o) : Clear o := by
  cases o with
  | leaf => cases h
  | comp c d k ss =>
    cases h
    refine .comp _ _ _ _ ?_ hd
    show (!Nat.beq k 20) = true
    rw [Bool.not_eq_true']
    cases hb : Nat.beq k 20 with
    | false => rfl
    | true => exact absurd (Nat.eq_of_beq_eq_true hb) hc

theorem direction_clear {d d' : Str} {k : Nat} {ss : List Slot} (h : Clear (.comp .DirectionType d k ss)) : choiceOf (.comp .DirectionType d' k ss) ≠ 20 := by
  cases h with
  | comp _ _ _ _ h1 _ =>
    intro e
    have e : k = 20 := e
    subst e
    cases h1

/-! ## Arrows -/

theorem clear_arrow {o : Node} (h : Is (.comp .Arrow) o) (hc : choiceOf o = 0) : Clear o := by
  have hd := deep_all_free (by decide +kernel) h
  obtain ⟨d, k, ss, rfl, _, _⟩ := is_comp h
  have hc : k = 0 := hc
  subst hc
  exact .comp _ _ _ _ rfl hd

theorem choiceOf_setKid {o x : Node} {i : Nat} : choiceOf (o.setKid i x) = choiceOf o := by cases o <;> rfl

theorem choiceOf_inner {o : Node} {i : Nat} {f : Node → Node × Bool} : choiceOf (o.inner i f).1 = choiceOf o := by
  simp only [Node.inner]
  cases o.kid? i with
  | none => rfl
  | some x => exact choiceOf_setKid

theorem choice_readArrow {self : Child} (hself : Steady self) : ∀ {l : List Child} {o : Node} {ok : Bool}, Is (.comp .Arrow) o → Steadies l → choiceOf o = 0 → choiceOf (readArrow self l o ok).1 = 0
  | [], _, _, _, _, h => h
  | x :: xs, o, ok, h, hl, hc => by
    obtain ⟨hx, hxs⟩ := steadies_cons hl
    have ha : Is (.comp .Arrow) (if Nat.beq x.name (nm! "circular-arrow") = true then ((o.choose (some 1)).inner 1 x.read).1 else o) := by
      split
      · exact is_inner (is_choose h (by decide +kernel)) fun m _ n hn => hx m.kind n hn
      · exact h
    rw [readArrow]
    refine choice_readArrow hself (is_inner (is_choose ha (by decide +kernel)) fun m _ n hn => hself m.kind n hn) hxs ?_
    rw [choiceOf_inner, choiceOf_choose ha.2]

/-! ## Notehead texts -/

def textB (g : Node) : Bool := (partsAt g (choiceOf g)).all (leafData [])

theorem text_item {self : Child} (hself : Gives self []) (o : Node) (h : o.kind = .comp .NoteheadText) {k : Nat} (hk : k = 0 ∨ k = 1) : textB ((o.newItem 0).readField (k, some k) self).1 = true := by
  rw [newItem_member h (m := ⟨.comp .NoteheadTextChoice, .set ⟨1, none, 0, 1⟩⟩) rfl]
  have e : make (.comp .NoteheadTextChoice) = .comp .NoteheadTextChoice [] 0 [.mk false [.leaf (nm! "display-text") true []], .mk false [.leaf (nm! "accidental-text") true []]] := rfl
  show textB ((make (.comp .NoteheadTextChoice)).readField (k, some k) self).1 = true
  rw [e]
  rcases hk with rfl | rfl
  · simp only [Node.readField, Node.inner, Node.kid?, List.getElem?_cons_zero, Option.bind_some, Slot.kids, List.head?_cons]
    rw [hself]; rfl
  · simp only [Node.readField, Node.inner, Node.kid?, List.getElem?_cons_succ, List.getElem?_cons_zero, Option.bind_some, Slot.kids, List.head?_cons]
    rw [hself]; rfl

theorem parts_addItem {o n x : Node} {i j : Nat} (h : x ∈ partsAt (o.addItem i n) j) : x ∈ partsAt o j ∨ (i = j ∧ x = n) := by
  cases o with
  | leaf => cases h
  | comp c d k ss =>
    simp only [Node.addItem, Node.changeItems, partsAt, kidsAt, changeSlot_get] at h ⊢
    split at h
    · cases hs : ss[j]? with
      | none => rw [hs] at h; simp at h
      | some s =>
        rw [hs] at h
        simp only [Option.map_some, Option.getD_some] at h ⊢
        have h : x ∈ (if s.kids.length = 1 ∧ s.on = false then [] else s.kids) ++ [n] := h
        rw [List.mem_append, List.mem_singleton] at h
        rcases h with h | h
        · left
          by_cases h1 : s.kids.length = 1 ∧ s.on = false
          · rw [if_pos h1] at h; cases h
          · rw [if_neg h1] at h; exact h
        · right; exact ⟨by assumption, h⟩
    · exact .inl h

/-- The data of an object. -/
def nodeData : Node → Str
  | .leaf _ _ d => d
  | .comp _ d _ _ => d

theorem data_addItem {o n : Node} {i : Nat} : nodeData (o.addItem i n) = nodeData o := by cases o <;> rfl
theorem kind_addItem {o n : Node} {i : Nat} : (o.addItem i n).kind = o.kind := by cases o <;> rfl

def TextInv (o : Node) : Prop := o.kind = .comp .NoteheadText ∧ nodeData o = [] ∧ ∀ g ∈ partsAt o 0, textB g = true

theorem text_at {self : Child} (hself : Gives self []) {o : Node} (h : TextInv o) (x : Child) (xs : List Child) {name k : Nat} (hk : k = 0 ∨ k = 1) : TextInv ((RStmt.selfItem name 0 (k, some k)).at self o x xs).obj := by
  simp only [RStmt.at]
  split
  · refine ⟨kind_addItem.trans h.1, data_addItem.trans h.2.1, ?_⟩
    intro g hg
    rcases parts_addItem hg with hg | ⟨_, rfl⟩
    · exact h.2.2 g hg
    · exact text_item hself o h.1 hk
  · exact h

theorem text_runBody {self : Child} (hself : Gives self []) : ∀ (ss : List RStmt) {o : Node} {l : List Child}, (∀ s ∈ ss, ∃ name k, s = RStmt.selfItem name 0 (k, some k) ∧ (k = 0 ∨ k = 1)) → TextInv o → TextInv (runBody self ss o l).obj
  | [], o, l, _, h => by simpa [runBody, idle] using h
  | s :: ss, o, [], _, h => by simpa [runBody, idle] using h
  | s :: ss, o, x :: xs, hs, h => by
    have h1 : TextInv (s.at self o x xs).obj := by
      obtain ⟨name, k, rfl, hk⟩ := hs s (by simp)
      exact text_at hself h x xs hk
    rw [runBody]
    split
    · exact h1
    · exact text_runBody hself ss (fun s hs' => hs s (by simp [hs'])) h1

theorem text_readLoop {self : Child} (hself : Gives self []) {body : List RStmt} (hs : ∀ s ∈ body, ∃ name k, s = RStmt.selfItem name 0 (k, some k) ∧ (k = 0 ∨ k = 1)) {strict : Bool} : ∀ (f : Nat) {o : Node} {l : List Child},
    TextInv o → TextInv (readLoop self body strict f o l).1
  | _, o, [], h => by simpa [readLoop] using h
  | 0, o, _ :: _, h => by simpa [readLoop] using h
  | f + 1, o, x :: xs, h => by
    rw [readLoop]
    exact text_readLoop hself hs f (text_runBody hself body hs h)

theorem clear_text {o : Node} (h : TextInv o) (hd : Deep o) : Clear o := by
  obtain ⟨h1, h2, h3⟩ := h
  cases o with
  | leaf => cases h1
  | comp c d k ss =>
    cases h1
    refine .comp _ _ _ _ ?_ hd
    have h2 : d = [] := h2
    subst h2
    show (decide (([] : Str) = []) && (kidsAt ss 0).all textB) = true
    rw [Bool.and_eq_true]
    exact ⟨by simp, List.all_eq_true.mpr h3⟩

theorem text_clear {d : Str} {k : Nat} {ss : List Slot} (h : Clear (.comp .NoteheadText d k ss)) : TextInv (.comp .NoteheadText [] k ss) := by
  cases h with
  | comp _ _ _ _ h1 _ =>
    have h1 : (decide (d = []) && (kidsAt ss 0).all textB) = true := h1
    rw [Bool.and_eq_true] at h1
    exact ⟨rfl, rfl, List.all_eq_true.mp h1.2⟩

/-! ## Credits -/

theorem parts_push {o n x : Node} {i j : Nat} (h : x ∈ partsAt (o.push i n) j) : x ∈ partsAt o j ∨ (i = j ∧ x = n) := by
  cases o with
  | leaf => cases h
  | comp c d k ss =>
    simp only [Node.push, partsAt, kidsAt, changeSlot_get] at h ⊢
    split at h
    · cases hs : ss[j]? with
      | none => rw [hs] at h; simp at h
      | some s =>
        rw [hs] at h
        simp only [Option.map_some, Option.getD_some] at h ⊢
        rcases add_mem h with h | h
        · exact .inl h
        · exact .inr ⟨by assumption, h⟩
    · exact .inl h

theorem parts_pushes {x : Node} {i j : Nat} : ∀ {new : List Node} {o : Node}, x ∈ partsAt (new.foldl (fun o x => o.push i x) o) j → x ∈ partsAt o j ∨ x ∈ new
  | [], _, h => .inl h
  | n :: ns, o, h => by
    rw [List.foldl_cons] at h
    rcases parts_pushes h with h | h
    · rcases parts_push h with h | ⟨_, rfl⟩
      · exact .inl h
      · simp
    · exact .inr (by simp [h])

/-- The links and bookmarks have this data. -/
def LinksOf (d : Str) (g : Node) : Prop := ∀ j, j = 0 ∨ j = 1 → ∀ x ∈ partsAt g j, leafData d x = true

theorem links_pushes {d : Str} {g : Node} (h : LinksOf d g) {i : Nat} {new : List Node} (hn : ∀ x ∈ new, leafData d x = true) : LinksOf d (new.foldl (fun o x => o.push i x) g) := by
  intro j hj x hx
  rcases parts_pushes hx with hx | hx
  · exact h j hj x hx
  · exact hn x hx

theorem gives_item {d : Str} {self : Child} (hself : Gives self d) {g : Node} (h : g.kind = .comp .CreditWordsGroup) {i : Nat} (hi : i = 0 ∨ i = 1) (l : List Child) :
    ∀ x ∈ (l.map fun _ => self.read (g.newItem i)).map (·.1), leafData d x = true := by
  intro x hx
  simp only [List.map_map, List.mem_map, Function.comp_apply] at hx
  obtain ⟨y, _, rfl⟩ := hx
  rcases hi with rfl | rfl
  · rw [newItem_member h (m := ⟨.leaf (nm! "link") false, .set ⟨0, none, 0, 0⟩⟩) rfl]
    show leafData d (self.read (.leaf (nm! "link") false [])).1 = true
    rw [hself]; simp [leafData]
  · rw [newItem_member h (m := ⟨.leaf (nm! "bookmark") false, .set ⟨0, none, 0, 0⟩⟩) rfl]
    show leafData d (self.read (.leaf (nm! "bookmark") false [])).1 = true
    rw [hself]; simp [leafData]

theorem links_new {c : Node} (h : c.kind = .comp .CreditChoice) (d : Str) : LinksOf d (c.newItem 2) := by
  rw [newItem_member h (m := ⟨.comp .CreditWordsGroup, .set ⟨0, none, 0, 0⟩⟩) rfl]
  intro j hj x hx
  rcases hj with rfl | rfl <;> cases hx

theorem links_inner {d : Str} {g : Node} (h : LinksOf d g) {f : Node → Node × Bool} : LinksOf d (g.inner 2 f).1 := by
  intro j hj
  rw [partsAt_eq (slot_inner (by omega))]
  exact h j hj

theorem links_creditWords {d : Str} {self : Child} (hs : Steady self) (hself : Gives self d) : ∀ (f : Nat) {c g : Node} {l : List Child}, Is (.comp .CreditChoice) c → Is (.comp .CreditWordsGroup) g → Steadies l →
    (∀ g ∈ partsAt c 2, LinksOf d g) → LinksOf d g → ∀ y ∈ partsAt (creditWords self f c g l).1 2, LinksOf d y
  | 0, _, _, _, _, _, _, h, _ => h
  | f + 1, c, g, l, hc, hg, hl, h, hgl => by
    rw [creditWords]
    split
    · extract_lets links g1 l1 marks g2 ok
      have hg1 : Is (.comp .CreditWordsGroup) g1 := is_pushes (by decide +kernel) hg (is_selfs hg hs _)
      have hg2 : Is (.comp .CreditWordsGroup) g2 := is_pushes (by decide +kernel) hg1 (is_selfs hg1 hs _)
      have k1 : LinksOf d g1 := links_pushes hgl (gives_item hself hg.2 (.inl rfl) _)
      have k2 : LinksOf d g2 := links_pushes k1 (gives_item hself hg1.2 (.inr rfl) _)
      have hd : Steadies (l1.drop marks.length) := steadies_drop (steadies_drop hl _) _
      clear_value g2 ok
      revert hd
      generalize l1.drop marks.length = l2
      intro hd
      cases l2 with
      | nil => exact h
      | cons x xs =>
        obtain ⟨hx, hxs⟩ := steadies_cons hd
        simp only
        split
        · refine links_creditWords hs hself f (is_push hc (by decide +kernel) ?_) ?_ hxs ?_ (links_new hc.2 d)
          · intro m hm
            cases hm
            exact is_inner hg2 fun m _ n hn => hx m.kind n hn
          · exact is_newItem hc (i := 2) (m := ⟨.comp .CreditWordsGroup, .set ⟨0, none, 0, 0⟩⟩) rfl
          · intro y hy
            rcases parts_push hy with hy | ⟨_, rfl⟩
            · exact h y hy
            · exact links_inner k2
        · exact links_creditWords hs hself f hc hg2 hd h k2
    · exact h

theorem clear_credit {o : Node} (h : Is (.comp .Credit) o) (hq : ∀ q ∈ partsAt o 3, ∀ g ∈ partsAt q 2, LinksOf (nodeData o) g) : Clear o := by
  have hd := deep_all_free (by decide +kernel) h
  obtain ⟨d, k, ss, rfl, _, _⟩ := is_comp h
  refine .comp _ _ _ _ ?_ hd
  show ((kidsAt ss 3).all fun q => (partsAt q 2).all fun g => (partsAt g 0 ++ partsAt g 1).all (leafData d)) = true
  rw [List.all_eq_true]
  intro q hq'
  rw [List.all_eq_true]
  intro g hg
  rw [List.all_eq_true]
  intro x hx
  rcases List.mem_append.mp hx with hx | hx
  · exact hq q hq' g hg 0 (.inl rfl) x hx
  · exact hq q hq' g hg 1 (.inr rfl) x hx

theorem data_push {o n : Node} {i : Nat} : nodeData (o.push i n) = nodeData o := by cases o <;> rfl
theorem data_pushes {i : Nat} : ∀ {new : List Node} {o : Node}, nodeData (new.foldl (fun o x => o.push i x) o) = nodeData o
  | [], _ => rfl
  | n :: ns, _ => by rw [List.foldl_cons, data_pushes, data_push]
theorem data_setKid {o x : Node} {i : Nat} : nodeData (o.setKid i x) = nodeData o := by cases o <;> rfl
theorem data_inner {o : Node} {i : Nat} {f : Node → Node × Bool} : nodeData (o.inner i f).1 = nodeData o := by
  simp only [Node.inner]
  cases o.kid? i with
  | none => rfl
  | some x => exact data_setKid

theorem slot_pushRun {o : Node} {name i j : Nat} (h : i ≠ j) (l : List Child) : (pushRun name i o l).obj.slotAt? j = o.slotAt? j := slot_pushes h
theorem data_pushRun {o : Node} {name i : Nat} (l : List Child) : nodeData (pushRun name i o l).obj = nodeData o := data_pushes

theorem parts_setKid {o n x : Node} {i : Nat} (h : x ∈ partsAt (o.setKid i n) i) : x ∈ partsAt o i ∨ x = n := by
  cases o with
  | leaf => cases h
  | comp c d k ss =>
    simp only [Node.setKid, partsAt, kidsAt, changeSlot_get, if_true] at h ⊢
    cases hs : ss[i]? with
    | none => rw [hs] at h; simp at h
    | some s =>
      rw [hs] at h
      simp only [Option.map_some, Option.getD_some, Slot.kids, List.mem_cons] at h ⊢
      rcases h with h | h
      · exact .inr h
      · exact .inl (List.mem_of_mem_tail h)

theorem kid_parts {o x : Node} {i : Nat} (h : o.kid? i = some x) : x ∈ partsAt o i := by
  cases o with
  | leaf => cases h
  | comp c d k ss =>
    obtain ⟨s, h1, h2⟩ := kid_of h
    simp only [partsAt, kidsAt, h1, Option.map_some, Option.getD_some]
    exact List.mem_of_head? h2

theorem links_inner3 {o : Node} {d : Str} (h : ∀ q ∈ partsAt o 3, partsAt q 2 = []) {f : Node → Node × Bool} (hf : ∀ q, o.kid? 3 = some q → partsAt q 2 = [] → ∀ g ∈ partsAt (f q).1 2, LinksOf d g) :
    ∀ q ∈ partsAt (o.inner 3 f).1 3, ∀ g ∈ partsAt q 2, LinksOf d g := by
  simp only [Node.inner]
  cases hk : o.kid? 3 with
  | none =>
    intro q hq g hg
    rw [h q hq] at hg
    cases hg
  | some y =>
    intro q hq g hg
    rcases parts_setKid hq with hq | rfl
    · rw [h q hq] at hg
      cases hg
    · exact hf y hk (h y (kid_parts hk)) g hg

/-- A credit that is read into a new object. -/
theorem clear_readCredit {d : Str} {self : Child} (hs : Steady self) (hself : Gives self d) {o : Node} (h : Is (.comp .Credit) o) (hdata : nodeData o = d) (hnew : ∀ q ∈ partsAt o 3, partsAt q 2 = []) {l : List Child} (hl : Steadies l) :
    Clear (readCredit self l o).1 := by
  have hi := is_readCredit hs h hl
  refine clear_credit hi ?_
  suffices hsuff : nodeData (readCredit self l o).1 = d ∧ ∀ q ∈ partsAt (readCredit self l o).1 3, ∀ g ∈ partsAt q 2, LinksOf d g by
    rw [hsuff.1]; exact hsuff.2
  clear hi
  simp only [readCredit]
  have ha := is_pushRun (c := .Credit) (i := 0) (name := nm! "credit-type") (by decide +kernel) h hl
  have ha1 : nodeData (pushRun (nm! "credit-type") 0 o l).obj = d := (data_pushRun l).trans hdata
  have ha2 : (pushRun (nm! "credit-type") 0 o l).obj.slotAt? 3 = o.slotAt? 3 := slot_pushRun (by decide) l
  revert ha ha1 ha2
  generalize pushRun (nm! "credit-type") 0 o l = a
  intro ha ha1 ha2
  have hb := is_pushRun (c := .Credit) (i := 1) (name := nm! "link") (by decide +kernel) ha (steadies_drop hl a.used)
  have hb1 : nodeData (pushRun (nm! "link") 1 a.obj (l.drop a.used)).obj = d := (data_pushRun _).trans ha1
  have hb2 : (pushRun (nm! "link") 1 a.obj (l.drop a.used)).obj.slotAt? 3 = o.slotAt? 3 := (slot_pushRun (by decide) _).trans ha2
  revert hb hb1 hb2
  generalize pushRun (nm! "link") 1 a.obj (l.drop a.used) = b
  intro hb hb1 hb2
  have hc := is_pushRun (c := .Credit) (i := 2) (name := nm! "bookmark") (by decide +kernel) hb (steadies_drop hl (a.used + b.used))
  have hc1 : nodeData (pushRun (nm! "bookmark") 2 b.obj (l.drop (a.used + b.used))).obj = d := (data_pushRun _).trans hb1
  have hc2 : (pushRun (nm! "bookmark") 2 b.obj (l.drop (a.used + b.used))).obj.slotAt? 3 = o.slotAt? 3 := (slot_pushRun (by decide) _).trans hb2
  revert hc hc1 hc2
  generalize pushRun (nm! "bookmark") 2 b.obj (l.drop (a.used + b.used)) = c
  intro hc hc1 hc2
  have hn : ∀ q ∈ partsAt c.obj 3, partsAt q 2 = [] := by rw [partsAt_eq hc2]; exact hnew
  have hn' : ∀ q ∈ partsAt c.obj 3, ∀ g ∈ partsAt q 2, LinksOf d g := by
    intro q hq g hg
    rw [hn q hq] at hg
    cases hg
  cases hd : l.drop (a.used + b.used + c.used) with
  | nil => exact ⟨hc1, hn'⟩
  | cons x xs =>
    obtain ⟨hx, hxs⟩ := steadies_cons (hd ▸ steadies_drop hl (a.used + b.used + c.used))
    simp only
    split
    · refine ⟨data_inner.trans hc1, links_inner3 hn ?_⟩
      intro q hq hq2 g hg
      have : partsAt (q.readField (0, some 0) x).1 2 = partsAt q 2 := by
        simp only [Node.readField]
        exact partsAt_eq (slot_choose.trans (slot_inner (by decide)))
      rw [this, hq2] at hg
      cases hg
    · split
      · refine ⟨data_inner.trans hc1, links_inner3 hn ?_⟩
        intro q hq hq2
        obtain ⟨m, hm, hqi⟩ := is_kid hc hq
        cases hm
        have hw := is_readField hqi (f := (1, some 1)) (by decide +kernel) hx
        have : partsAt (q.readField (1, some 1) x).1 2 = [] := by
          rw [← hq2]
          simp only [Node.readField]
          exact partsAt_eq (slot_choose.trans (slot_inner (by decide)))
        refine links_creditWords hs hself _ hw (is_newItem hw (i := 2) (m := ⟨.comp .CreditWordsGroup, .set ⟨0, none, 0, 0⟩⟩) rfl) hxs ?_ (links_new hw.2 d)
        rw [this]
        simp
      · exact ⟨hc1, hn'⟩

end Mx.Content
