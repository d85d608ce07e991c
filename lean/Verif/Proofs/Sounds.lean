import Verif.Model.Sounds
import Verif.Proofs.StringEnum
import Mathlib.Data.List.Nodup

/-! Helper lemmas about the table of instrument sounds. -/
namespace Mx

theorem mapFind_of_mem {α β : Type} [DecidableEq α] {l : List (α × β)} (hn : (l.map Prod.fst).Nodup) {k : α} {v : β} (h : (k, v) ∈ l) :
    mapFind l k = some v := by
  induction l with
  | nil => cases h
  | cons p t ih =>
    obtain ⟨k', v'⟩ := p
    simp only [List.map_cons, List.nodup_cons] at hn
    rw [mapFind]
    rcases List.mem_cons.mp h with h1 | h1
    · injection h1 with h2 h3; rw [if_pos h2, h3]
    · have : k ≠ k' := by
        rintro rfl
        exact hn.1 (List.mem_map.mpr ⟨_, h1, rfl⟩)
      rw [if_neg this]; exact ih hn.2 h1

theorem mapFind_mem {α β : Type} [DecidableEq α] {l : List (α × β)} {k : α} {v : β} (h : mapFind l k = some v) : (k, v) ∈ l := by
  induction l with
  | nil => cases h
  | cons p t ih =>
    obtain ⟨k', v'⟩ := p
    rw [mapFind] at h
    split at h
    · rename_i hk; injection h with h; subst hk; subst h; simp
    · exact List.mem_cons_of_mem _ (ih h)

theorem ifChain_of_mem {α : Type} {l : List (Str × α)} (hn : (l.map Prod.fst).Nodup) {k : Str} {v : α} (h : (k, v) ∈ l) :
    ifChain l k = some v := by
  induction l with
  | nil => cases h
  | cons p t ih =>
    obtain ⟨k', v'⟩ := p
    simp only [List.map_cons, List.nodup_cons] at hn
    rw [ifChain]
    rcases List.mem_cons.mp h with h1 | h1
    · injection h1 with h2 h3; rw [if_pos h2, h3]
    · have : k ≠ k' := by
        rintro rfl
        exact hn.1 (List.mem_map.mpr ⟨_, h1, rfl⟩)
      rw [if_neg this]; exact ih hn.2 h1

/-- A number for every text of the table that grows along the table: the hyphens are left out. -/
def soundKey (s : Str) : Nat := (s.filter (· ≠ '-')).foldl (fun n c => n * 128 + (c.toNat + 1)) 0 

def padded (s : Str) : Nat := soundKey s * 128 ^ (60 - (s.filter (· ≠ '-')).length)

def increasing : List Nat → Bool
  | a :: b :: t => decide (a < b) && increasing (b :: t)
  | _ => true

theorem increasing_nodup {l : List Nat} (h : increasing l = true) : l.Nodup := by
  have : List.Pairwise (· < ·) l := by
    induction l with
    | nil => exact List.Pairwise.nil
    | cons a t ih =>
      cases t with
      | nil => simp
      | cons b t =>
        simp only [increasing, Bool.and_eq_true, decide_eq_true_eq] at h
        have hp := ih h.2
        refine List.Pairwise.cons ?_ hp
        intro c hc
        rcases List.mem_cons.mp hc with rfl | hc
        · exact h.1
        · exact Nat.lt_trans h.1 (List.rel_of_pairwise_cons hp hc)
  exact this.imp (fun h => Nat.ne_of_lt h)

theorem sounds_increasing : increasing (playbackSoundMembers.map (fun p => padded p.2)) = true := by decide +kernel

theorem sounds_texts_nodup : (playbackSoundMembers.map Prod.snd).Nodup := by
  have h := increasing_nodup sounds_increasing
  have h' : ((playbackSoundMembers.map Prod.snd).map padded).Nodup := by rw [List.map_map]; exact h
  exact List.Nodup.of_map _ h'

theorem sounds_order : playbackSoundMembers.map Prod.fst = instrumentMap.order := by decide +kernel

theorem sounds_rows : instrumentMap.rows.map Prod.fst = instrumentMap.order := by decide +kernel

theorem sounds_indices : instrumentMap.order.map Core.PlaybackSound.ctorIdx = List.range 886 := by decide +kernel

theorem soundIDs_indices : (instrumentMap.rows.map Prod.snd).map Api.SoundID.ctorIdx = (List.range 886).map (· + 2) := by decide +kernel

theorem ctorIdx_sound_lt (x : Core.PlaybackSound) : x.ctorIdx < 886 := by cases x <;> decide

theorem ctorIdx_sound_inj {x y : Core.PlaybackSound} (h : x.ctorIdx = y.ctorIdx) : x = y := by
  have := congrArg Core.PlaybackSound.ofNat h
  rwa [Core.PlaybackSound.ofNat_ctorIdx, Core.PlaybackSound.ofNat_ctorIdx] at this

theorem ctorIdx_soundID_inj {x y : Api.SoundID} (h : x.ctorIdx = y.ctorIdx) : x = y := by
  have := congrArg Api.SoundID.ofNat h
  rwa [Api.SoundID.ofNat_ctorIdx, Api.SoundID.ofNat_ctorIdx] at this

theorem ctorIdx_soundID_lt (x : Api.SoundID) : x.ctorIdx < 888 := by cases x <;> decide

theorem sounds_all (x : Core.PlaybackSound) : x ∈ instrumentMap.order := by
  have : x.ctorIdx ∈ instrumentMap.order.map Core.PlaybackSound.ctorIdx := by
    rw [sounds_indices]; exact List.mem_range.mpr (ctorIdx_sound_lt x)
  obtain ⟨y, hy, he⟩ := List.mem_map.mp this
  rw [← ctorIdx_sound_inj he]; exact hy

theorem sounds_nodup : instrumentMap.order.Nodup :=
  List.Nodup.of_map Core.PlaybackSound.ctorIdx (by rw [sounds_indices]; exact List.nodup_range)

theorem soundIDs_nodup : (instrumentMap.rows.map Prod.snd).Nodup :=
  List.Nodup.of_map Api.SoundID.ctorIdx (by
    rw [soundIDs_indices]; exact List.Nodup.map (fun a b h => Nat.add_right_cancel h) List.nodup_range)

theorem soundIDs_all {x : Api.SoundID} (h1 : x ≠ .unspecified) (h2 : x ≠ .errorBadString) : x ∈ instrumentMap.rows.map Prod.snd := by
  have hx : 2 ≤ x.ctorIdx := by
    rcases Nat.lt_or_ge x.ctorIdx 2 with h | h
    · exfalso
      rcases Nat.lt_or_ge x.ctorIdx 1 with h' | h'
      · have h0 : x.ctorIdx = Api.SoundID.unspecified.ctorIdx := by
          have : Api.SoundID.unspecified.ctorIdx = 0 := rfl
          omega
        exact h1 (ctorIdx_soundID_inj h0)
      · have h0 : x.ctorIdx = Api.SoundID.errorBadString.ctorIdx := by
          have : Api.SoundID.errorBadString.ctorIdx = 1 := rfl
          omega
        exact h2 (ctorIdx_soundID_inj h0)
    · exact h
  have : x.ctorIdx ∈ (instrumentMap.rows.map Prod.snd).map Api.SoundID.ctorIdx := by
    rw [soundIDs_indices]
    exact List.mem_map.mpr ⟨x.ctorIdx - 2, List.mem_range.mpr (by have := ctorIdx_soundID_lt x; omega), by omega⟩
  obtain ⟨y, hy, he⟩ := List.mem_map.mp this
  rw [← ctorIdx_soundID_inj he]; exact hy

/-- A `std::map` whose rows have distinct keys and distinct values finds each value at its key. -/
theorem ConvMap.toCore_of_mem {C A : Type} [DecidableEq C] [DecidableEq A] (m : ConvMap C A) (hk : (m.rows.map Prod.fst).Nodup)
    (hv : (m.rows.map Prod.snd).Nodup) (ho : ∀ c, c ∈ m.order) {c : C} {a : A} (h : (c, a) ∈ m.rows) : m.toCore a = c := by
  have hf : ∀ c', mapFind m.rows c' = some a → c' = c := by
    intro c' hc'
    have h1 := mapFind_mem hc'
    have := List.inj_on_of_nodup_map hv h1 h rfl
    exact congrArg Prod.fst this
  unfold ConvMap.toCore
  cases hfind : m.order.find? (fun c => decide (mapFind m.rows c = some a)) with
  | none =>
    rw [List.find?_eq_none] at hfind
    exact absurd (decide_eq_true (mapFind_of_mem hk h)) (hfind c (ho c))
  | some c' =>
    have := List.find?_some hfind
    exact hf c' (by simpa using this)

theorem ConvMap.toApi_of_mem {C A : Type} [DecidableEq C] (m : ConvMap C A) (hk : (m.rows.map Prod.fst).Nodup)
    {c : C} {a : A} (h : (c, a) ∈ m.rows) : m.toApi c = a := by
  rw [ConvMap.toApi, mapFind_of_mem hk h]; rfl

theorem sounds_rows_nodup : (instrumentMap.rows.map Prod.fst).Nodup := by rw [sounds_rows]; exact sounds_nodup

theorem sound_toCore {x : Api.SoundID} (h1 : x ≠ .unspecified) (h2 : x ≠ .errorBadString) : instrumentMap.toApi (instrumentMap.toCore x) = x := by
  obtain ⟨⟨c, a⟩, hm, ha⟩ := List.mem_map.mp (soundIDs_all h1 h2)
  subst ha
  rw [ConvMap.toCore_of_mem instrumentMap sounds_rows_nodup soundIDs_nodup sounds_all hm]
  exact ConvMap.toApi_of_mem _ sounds_rows_nodup hm

theorem sound_toApi (c : Core.PlaybackSound) :
    instrumentMap.toCore (instrumentMap.toApi c) = c ∧ instrumentMap.toApi c ≠ .unspecified ∧ instrumentMap.toApi c ≠ .errorBadString := by
  have : c ∈ instrumentMap.rows.map Prod.fst := by rw [sounds_rows]; exact sounds_all c
  obtain ⟨⟨c', a⟩, hm, hc⟩ := List.mem_map.mp this
  subst hc
  have ha := ConvMap.toApi_of_mem instrumentMap sounds_rows_nodup hm
  refine ⟨?_, ?_⟩
  · rw [ha]; exact ConvMap.toCore_of_mem instrumentMap sounds_rows_nodup soundIDs_nodup sounds_all hm
  · have hi : a.ctorIdx ∈ (List.range 886).map (· + 2) := by
      rw [← soundIDs_indices]; exact List.mem_map.mpr ⟨a, List.mem_map.mpr ⟨_, hm, rfl⟩, rfl⟩
    obtain ⟨i, _, hi⟩ := List.mem_map.mp hi
    rw [ha]
    constructor
    · rintro rfl; have : (Api.SoundID.unspecified).ctorIdx = 0 := rfl; omega
    · rintro rfl; have : (Api.SoundID.errorBadString).ctorIdx = 1 := rfl; omega

theorem sound_text (c : Core.PlaybackSound) : ∃ s, playbackSoundToString c = .ok s ∧ (c, s) ∈ playbackSoundMembers := by
  have : c ∈ playbackSoundMembers.map Prod.fst := by rw [sounds_order]; exact sounds_all c
  obtain ⟨⟨c', s⟩, hm, hc⟩ := List.mem_map.mp this
  subst hc
  refine ⟨s, ?_, hm⟩
  rw [playbackSoundToString, mapFind_of_mem (by rw [sounds_order]; exact sounds_nodup) hm]

theorem sound_parse {c : Core.PlaybackSound} {s : Str} : playbackSoundFromString s = .ok c ↔ playbackSoundToString c = .ok s := by
  obtain ⟨t, ht, hm⟩ := sound_text c
  have hp : ∀ {c t}, (c, t) ∈ playbackSoundMembers → ifChain (playbackSoundMembers.map (fun p => (p.2, p.1))) t = some c := by
    intro c t hm
    refine ifChain_of_mem ?_ (List.mem_map.mpr ⟨_, hm, rfl⟩)
    rw [List.map_map]; exact sounds_texts_nodup
  constructor
  · intro h
    unfold playbackSoundFromString at h
    cases hf : ifChain (playbackSoundMembers.map (fun p => (p.2, p.1))) s with
    | none => rw [hf] at h; cases h
    | some c' =>
      rw [hf] at h; injection h with h; subst h
      have h2 := ifChain_some hf
      obtain ⟨⟨c1, s1⟩, h3, h4⟩ := List.mem_map.mp h2
      injection h4 with h5 h6; dsimp only at h5 h6; subst h5; subst h6
      rw [playbackSoundToString, mapFind_of_mem (by rw [sounds_order]; exact sounds_nodup) h3]
  · intro h
    rw [ht] at h; injection h with h; subst h
    rw [playbackSoundFromString, hp hm]

end Mx
