import Verif.Proofs.StableSpecial
import Verif.Spec.Stable

/-
Lyrics.
-/
open Mx.Spec
namespace Mx.Content

/-- The last of the first `n` children has one of the names. -/
def Ends (S : List Nat) (l : List Child) (n : Nat) : Prop := n = 0 ∨ ∃ y, l[n - 1]? = some y ∧ y.name ∈ S

theorem ends_add {S : List Nat} {l : List Child} {a b : Nat} (ha : Ends S l a) (hb : Ends S (l.drop a) b) : Ends S l (a + b) := by
  by_cases h0 : b = 0
  · subst h0; exact ha
  · right
    rcases hb with hb | ⟨y, h1, h2⟩
    · exact absurd hb h0
    · refine ⟨y, ?_, h2⟩
      rw [List.getElem?_drop] at h1
      rw [← h1]
      congr 1
      omega

theorem ends_one {S : List Nat} {x : Child} {xs : List Child} (h : x.name ∈ S) : Ends S (x :: xs) 1 := .inr ⟨x, rfl, h⟩

theorem ends_part {S : List Nat} {name i : Nat} (h : name ∈ S) (g : Node) (l : List Child) : Ends S l (readParts [.one name i] g l).used := by
  cases l with
  | nil => exact .inl rfl
  | cons x xs =>
    simp only [readParts]
    split
    · rename_i he
      refine ends_one ?_
      rw [Nat.eq_of_beq_eq_true he]; exact h
    · exact .inl rfl

def textNames : List Nat := [nm! "syllabic", nm! "text", nm! "elision", nm! "extend"]

theorem ends_elisionGroup (g : Node) (l : List Child) : Ends textNames l (elisionGroup g l).used := by
  unfold elisionGroup
  extract_lets isS a b
  have ha : Ends textNames l a.used := by
    simp only [a]
    cases l with
    | nil => exact .inl rfl
    | cons x xs =>
      simp only
      split
      · rename_i he
        refine ends_one ?_
        rw [Nat.eq_of_beq_eq_true he]; decide
      · exact .inl rfl
  have hb : Ends textNames l b.used := by
    clear_value a
    simp only [b]
    cases hd : l.drop a.used with
    | nil => exact ha
    | cons x xs =>
      simp only
      split
      · rename_i he
        refine ends_add ha ?_
        rw [hd]
        refine ends_one ?_
        have he : Nat.beq x.name (nm! "syllabic") = true := he
        rw [Nat.eq_of_beq_eq_true he]; decide
      · exact ha
  clear_value b
  cases hd : l.drop b.used with
  | nil => exact hb
  | cons x xs =>
    simp only
    split
    · rename_i he
      refine ends_add hb ?_
      rw [hd]
      refine ends_one ?_
      rw [Nat.eq_of_beq_eq_true he]; decide
    · exact hb

theorem ends_elisionGroups : ∀ (f : Nat) (g : Node) (l : List Child), Ends textNames l (elisionGroups f g l).used
  | 0, _, _ => .inl rfl
  | f + 1, g, l => by
    rw [elisionGroups]
    split
    · simp only
      rw [Nat.add_comm]
      exact ends_add (ends_elisionGroup _ _) (ends_elisionGroups f _ _)
    · exact .inl rfl

theorem ends_syllabicText (g : Node) (l : List Child) : Ends textNames l (syllabicText g l).used := by
  unfold syllabicText
  extract_lets a l1 b l2 missing e x
  have ha : Ends textNames l a.used := ends_part (by decide) _ _
  have hb : Ends textNames l1 b.used := ends_part (by decide) _ _
  have he : Ends textNames l2 e.used := ends_elisionGroups _ _ _
  have hx : Ends textNames (l2.drop e.used) x.used := ends_part (by decide) _ _
  have h1 := ends_add ha hb
  have h2 := ends_add hb he
  have e1 : l2 = l.drop (a.used + b.used) := by simp only [l2, l1, List.drop_drop]
  clear_value e x
  rw [e1] at he hx
  have h3 := ends_add h1 he
  rw [List.drop_drop] at hx
  exact ends_add h3 hx

/-- Nothing is taken only in front of the end of a line or a paragraph. -/
theorem idle_syllabicText {g : Node} {x : Child} {xs : List Child} (hok : (syllabicText g (x :: xs)).ok = true) (hu : (syllabicText g (x :: xs)).used = 0) :
    x.name = nm! "end-line" ∨ x.name = nm! "end-paragraph" := by
  revert hok hu
  unfold syllabicText
  extract_lets a l1 b l2 missing e y
  intro hok hu
  simp only [Bool.and_eq_true] at hok
  have hu : a.used + b.used + e.used + y.used = 0 := hu
  have ha : a.used = 0 := by omega
  have hb : b.used = 0 := by omega
  have hl : l2 = x :: xs := by simp only [l2, l1, ha, hb, List.drop_zero]
  have hm := hok.1.1.2
  rw [Bool.not_eq_true'] at hm
  simp only [missing, hb, hl, BEq.rfl, Bool.true_and, Bool.and_eq_false_iff, Bool.not_eq_false'] at hm
  rcases hm with hm | hm
  · exact .inl (Nat.eq_of_beq_eq_true hm)
  · exact .inr (Nat.eq_of_beq_eq_true hm)

theorem order_drop : ∀ {l : List Nat} {n : Nat}, orderB l = true → orderB (l.drop n) = true
  | [], _, _ => by simp [orderB]
  | _ :: _, 0, h => h
  | x :: xs, n + 1, h => by
    rw [orderB, Bool.and_eq_true] at h
    rw [List.drop_succ_cons]
    exact order_drop h.2

def Silent (o : Node) : Prop := o.isOn 1 = false ∧ o.isOn 2 = false
def SungAt (o : Node) : Prop := ∀ g, o.kid? 0 = some g → choiceOf g = 0
structure LyricInv (o : Node) : Prop where
  plain : o.slotAt? 3 = (make (.comp .Lyric)).slotAt? 3
  ends : SungAt o ∨ Silent o

def LyricNext (o : Node) (l : List Child) : Prop := Silent o ∨ ∀ x ∈ l, lateB x.name = false

theorem silent_eq {o o' : Node} (h1 : o'.slotAt? 1 = o.slotAt? 1) (h2 : o'.slotAt? 2 = o.slotAt? 2) (h : Silent o) : Silent o' :=
  ⟨(isOn_eq h1).trans h.1, (isOn_eq h2).trans h.2⟩

theorem kid_slot {o o' : Node} {j : Nat} (h : o'.slotAt? j = o.slotAt? j) : o'.kid? j = o.kid? j := by
  have e : ∀ o : Node, o.kid? j = (o.slotAt? j).bind fun s => s.kids.head? := fun o => by cases o <;> rfl
  rw [e, e, h]

theorem kid_setKid {o x : Node} {i : Nat} {g : Node} (h : (o.setKid i x).kid? i = some g) : g = x := by
  cases o with
  | leaf => cases h
  | comp c d k ss =>
    simp only [Node.setKid, Node.kid?, changeSlot_get, if_true] at h
    cases hs : ss[i]? with
    | none => rw [hs] at h; simp at h
    | some s =>
      rw [hs] at h
      have h : some x = some g := h
      exact (Option.some.inj h).symm

/-- The statements of a lyric after the first two. -/
def lyricRest : List RStmt := [.elem (nm! "end-line") 1 true, .elem (nm! "end-paragraph") 2 true, .group 3 p_EditorialGroup false]

theorem rest_idle {self : Child} {o : Node} {y : Child} {ys : List Child} (h : y.name ∈ textNames) : runBody self lyricRest o (y :: ys) = ⟨o, true, 0, false⟩ := by
  have h1 : Nat.beq y.name (nm! "end-line") = false := by
    cases hb : Nat.beq y.name (nm! "end-line") with
    | false => rfl
    | true => rw [Nat.eq_of_beq_eq_true hb] at h; exact absurd h (by decide)
  have h2 : Nat.beq y.name (nm! "end-paragraph") = false := by
    cases hb : Nat.beq y.name (nm! "end-paragraph") with
    | false => rfl
    | true => rw [Nat.eq_of_beq_eq_true hb] at h; exact absurd h (by decide)
  have h3 : Nat.beq y.name (nm! "footnote") = false := by
    cases hb : Nat.beq y.name (nm! "footnote") with
    | false => rfl
    | true => rw [Nat.eq_of_beq_eq_true hb] at h; exact absurd h (by decide)
  have h4 : Nat.beq y.name (nm! "level") = false := by
    cases hb : Nat.beq y.name (nm! "level") with
    | false => rfl
    | true => rw [Nat.eq_of_beq_eq_true hb] at h; exact absurd h (by decide)
  simp only [lyricRest, runBody, RStmt.at, h1, h2, idle, if_false, Bool.false_eq_true, List.drop_zero, p_EditorialGroup, readParts, h3, h4, if_true]
  cases o.kid? 3 <;> rfl

theorem end_late {n : Nat} (h : endB n = true) : lateB n = false := by
  unfold endB at h
  rw [Bool.or_eq_true] at h
  rcases h with h | h <;> rw [Nat.eq_of_beq_eq_true h] <;> decide

/-- One round of the loop. -/
theorem lyric_round {self : Child} {o : Node} (h : Is (.comp .Lyric) o) (hi : LyricInv o) {x : Child} {xs : List Child} (hn : LyricNext o (x :: xs)) (ho : orderB ((x :: xs).map (·.name)) = true) (hl : Steadies (x :: xs))
    (hok : (runBody self (.sub 0 [(nm! "extend", 1, some 1), (nm! "laughing", 2, some 2), (nm! "humming", 3, some 3)] true :: .syllables :: lyricRest) o (x :: xs)).ok = true) :
    LyricInv (runBody self (.sub 0 [(nm! "extend", 1, some 1), (nm! "laughing", 2, some 2), (nm! "humming", 3, some 3)] true :: .syllables :: lyricRest) o (x :: xs)).obj ∧
      LyricNext (runBody self (.sub 0 [(nm! "extend", 1, some 1), (nm! "laughing", 2, some 2), (nm! "humming", 3, some 3)] true :: .syllables :: lyricRest) o (x :: xs)).obj
        (xs.drop (runBody self (.sub 0 [(nm! "extend", 1, some 1), (nm! "laughing", 2, some 2), (nm! "humming", 3, some 3)] true :: .syllables :: lyricRest) o (x :: xs)).adv) := by
  revert hok
  rw [runBody]
  cases hf : field [(nm! "extend", 1, some 1), (nm! "laughing", 2, some 2), (nm! "humming", 3, some 3)] x.name with
  | some f =>
    -- `extend`, `laughing`, `humming`
    have hlate : lateB x.name = true := by
      obtain ⟨p, hp, _, he⟩ := field_named hf
      rw [← he]
      simp only [List.mem_cons, List.not_mem_nil, or_false] at hp
      rcases hp with rfl | rfl | rfl <;> decide
    have hs : Silent o := by
      rcases hn with hn | hn
      · exact hn
      · rw [hn x (by simp)] at hlate; cases hlate
    simp only [RStmt.at, hf, if_true]
    intro _
    have hs' := silent_eq (o' := (o.inner 0 fun g => g.readField f x).1) (slot_inner (by decide)) (slot_inner (by decide)) hs
    exact ⟨⟨(slot_inner (by decide)).trans hi.plain, .inr hs'⟩, .inl hs'⟩
  | none =>
    simp only [RStmt.at, hf, idle, Bool.false_eq_true, if_false, List.drop_zero, Nat.zero_add, Bool.true_and]
    rw [runBody]
    -- the text
    simp only [RStmt.at, Got.step, Bool.false_eq_true, if_false]
    simp only [Node.innerGot]
    cases hk : o.kid? 0 with
    | none => intro hok; simp at hok
    | some g =>
      obtain ⟨m, hm, hg⟩ := is_kid h hk
      cases hm
      simp only
      cases hk2 : (g.choose (some 0)).kid? 0 with
      | none => intro hok; simp at hok
      | some t =>
        simp only
        have hsung : SungAt (o.setKid 0 ((g.choose (some 0)).setKid 0 (syllabicText t (x :: xs)).obj)) := by
          intro g' hg'
          rw [kid_setKid hg', choiceOf_setKid, choiceOf_choose hg.2]
        have h3 : (o.setKid 0 ((g.choose (some 0)).setKid 0 (syllabicText t (x :: xs)).obj)).slotAt? 3 = (make (.comp .Lyric)).slotAt? 3 := (slot_setKid (by decide)).trans hi.plain
        have hsil : Silent o → Silent (o.setKid 0 ((g.choose (some 0)).setKid 0 (syllabicText t (x :: xs)).obj)) := silent_eq (slot_setKid (by decide)) (slot_setKid (by decide))
        generalize o.setKid 0 ((g.choose (some 0)).setKid 0 (syllabicText t (x :: xs)).obj) = o' at hsung h3 hsil
        rcases ends_syllabicText t (x :: xs) with hu | ⟨y, hy, hyn⟩
        · rw [hu]
          simp only [Nat.zero_sub, List.drop_zero, Nat.zero_add, Bool.and_eq_true]
          rintro ⟨hok, hok2⟩
          have he := idle_syllabicText hok hu
          have hlater : ∀ z ∈ xs, lateB z.name = false := by
            rw [List.map_cons, orderB, Bool.and_eq_true, Bool.or_eq_true] at ho
            rcases ho.1 with h1 | h1
            · rw [Bool.not_eq_true'] at h1
              rcases he with he | he <;> rw [he] at h1 <;> exact absurd h1 (by decide)
            · intro z hz
              have := List.all_eq_true.mp h1 z.name (List.mem_map_of_mem hz)
              simpa using this
          have hlater' : ∀ n, ∀ z ∈ xs.drop n, lateB z.name = false := fun n z hz => hlater z (List.mem_of_mem_drop hz)
          rcases he with he | he
          · have e : runBody self lyricRest o' (x :: xs) = ⟨(o'.inner 1 x.read).1, (o'.inner 1 x.read).2, 0, true⟩ := by
              simp only [lyricRest, runBody, RStmt.at, he, Nat.beq_refl, if_true]
            rw [e]
            refine ⟨⟨(slot_inner (by decide)).trans h3, .inl ?_⟩, .inr (hlater' _)⟩
            intro g' hg'
            rw [kid_slot (slot_inner (by decide))] at hg'
            exact hsung g' hg'
          · have e : runBody self lyricRest o' (x :: xs) = ⟨(o'.inner 2 x.read).1, (o'.inner 2 x.read).2, 0, true⟩ := by
              have hne : Nat.beq (nm! "end-paragraph") (nm! "end-line") = false := by decide
              simp only [lyricRest, runBody, RStmt.at, he, Nat.beq_refl, hne, if_true, idle, Bool.false_eq_true, if_false, List.drop_zero, Nat.zero_add, Bool.true_and]
            rw [e]
            refine ⟨⟨(slot_inner (by decide)).trans h3, .inl ?_⟩, .inr (hlater' _)⟩
            intro g' hg'
            rw [kid_slot (slot_inner (by decide))] at hg'
            exact hsung g' hg'
        · obtain ⟨hlt, hget⟩ := List.getElem?_eq_some_iff.mp hy
          rw [List.drop_eq_getElem_cons hlt, hget, rest_idle hyn]
          intro _
          refine ⟨⟨h3, .inl hsung⟩, ?_⟩
          rcases hn with hn | hn
          · exact .inl (hsil hn)
          · exact .inr fun z hz => hn z (List.mem_cons_of_mem _ (List.mem_of_mem_drop hz))

theorem lyric_loop {self : Child} (hself : Steady self) : ∀ (f : Nat) {o : Node} {l : List Child}, Is (.comp .Lyric) o → LyricInv o → LyricNext o l → orderB (l.map (·.name)) = true → Steadies l →
    (readLoop self (.sub 0 [(nm! "extend", 1, some 1), (nm! "laughing", 2, some 2), (nm! "humming", 3, some 3)] true :: .syllables :: lyricRest) false f o l).2 = true →
    LyricInv (readLoop self (.sub 0 [(nm! "extend", 1, some 1), (nm! "laughing", 2, some 2), (nm! "humming", 3, some 3)] true :: .syllables :: lyricRest) false f o l).1
  | _, o, [], _, h, _, _, _, _ => by simpa [readLoop] using h
  | 0, o, _ :: _, _, h, _, _, _, _ => by simpa [readLoop] using h
  | f + 1, o, x :: xs, h, hi, hn, ho, hl, hok => by
    rw [readLoop] at hok ⊢
    simp only [Bool.and_eq_true] at hok
    obtain ⟨h1, h2⟩ := lyric_round h hi hn ho hl hok.1.1
    refine lyric_loop hself f (is_runBody hself _ (by decide +kernel) h hl) h1 h2 ?_ (steadies_drop (steadies_cons hl).2 _) hok.2
    rw [List.map_drop]
    rw [List.map_cons, orderB, Bool.and_eq_true] at ho
    exact order_drop ho.2

theorem clear_lyric {o : Node} (h : Is (.comp .Lyric) o) (hi : LyricInv o) (hd : Deep o) : Clear o := by
  obtain ⟨d, k, ss, rfl, _, _⟩ := is_comp h
  refine .comp _ _ _ _ ?_ hd
  have h3 : ss[3]? = some (.mk false [.comp .EditorialGroup [] 0 [.mk false [.leaf (nm! "footnote") true []], .mk false [.leaf (nm! "level") true []]]]) := hi.plain
  show (!flagAt ss 3 0 && !flagAt ss 3 1 && (Nat.beq (choiceAt ss 0) 0 || (!onAt ss 1 && !onAt ss 2))) = true
  have f0 : flagAt ss 3 0 = false := by simp only [flagAt, kidsAt, h3]; rfl
  have f1 : flagAt ss 3 1 = false := by simp only [flagAt, kidsAt, h3]; rfl
  rw [f0, f1]
  simp only [Bool.not_false, Bool.true_and, Bool.or_eq_true]
  rcases hi.ends with hs | hs
  · left
    have : choiceAt ss 0 = 0 := by
      unfold choiceAt
      split
      · rename_i c' d' k' ss' r hk
        have : (Node.comp Cls.Lyric d k ss).kid? 0 = some (.comp c' d' k' ss') := by
          simp only [Node.kid?]
          unfold kidsAt at hk
          cases hs0 : ss[0]? with
          | none => rw [hs0] at hk; simp at hk
          | some s =>
            rw [hs0] at hk
            simp only [Option.map_some, Option.getD_some] at hk
            simp [hk]
        exact hs _ this
      · rfl
    rw [this]; rfl
  · right
    have h1 : onAt ss 1 = false := hs.1
    have h2 : onAt ss 2 = false := hs.2
    rw [h1, h2]; rfl

/-- A lyric that is read into a new object. -/
theorem lyric_new (d : Str) : LyricInv (.comp .Lyric d 0 (match make (.comp .Lyric) with | .comp _ _ _ ss => ss | _ => [])) := ⟨rfl, .inr ⟨rfl, rfl⟩⟩

end Mx.Content
