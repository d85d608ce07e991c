import Verif.Proofs.ClefClock

/-! The MusicXML clock and the clefs: reading. -/
namespace Mx.Measure
open _root_.Spec

variable {P : Type}

/-- time, staff and content of a clef that was read -/
def clefPlace (G : Int) (d : Int × Timed P) : ℚ × Int × P := ((d.2.tick : ℚ) / G, d.1, d.2.content)

theorem read_follows_clefs {env : REnv} {G : Int} (hG : 0 < G) (hg : env.globalTicksPerQuarter = G) : ∀ (es : List (Elem P)) (c : Clock)
    (base : Option Int) (r : RSt P), WellTimed G c base es → StavesExist env.numStaves es → ClefsTimed env.numStaves es → Follows G c base (nextIsChord es) r →
    ∃ r', readElems env false es r = some r' ∧
      r'.clefs.map (clefPlace G) = r.clefs.map (clefPlace G) ++ placedClefs c es := by
  intro es
  have hGq : (G : ℚ) ≠ 0 := by exact_mod_cast (by omega)
  have hGpos : (0 : ℚ) < G := by exact_mod_cast hG
  induction es with
  | nil => intro c base r _ _ _ _; exact ⟨r, rfl, by simp [placedClefs]⟩
  | cons e es ih =>
    intro c base r hw hs hdt hf
    have hs' : StavesExist env.numStaves es :=
      ⟨hs.1, fun n hn => hs.2.1 n (by simp [hn]), fun a ha => hs.2.2 a (by simp [ha])⟩
    obtain ⟨hC, hdiv, hbase⟩ := hf
    have key : ∀ c' : Clock, c' = c → WellTimed G c' base es → ClefsTimed env.numStaves es →
        TickOk G c base (nextIsChord es) r.tick →
        ∀ r2 : RSt P, r2.tick = r.tick → r2.ticksPerQuarter = r.ticksPerQuarter → r2.clefs = r.clefs →
        ∃ r', readElems env false es r2 = some r' ∧
          r'.clefs.map (clefPlace G) = r.clefs.map (clefPlace G) ++ placedClefs c es := by
      rintro c' rfl hw hdt hb r2 h1 h2 h3
      obtain ⟨r', hr', hn'⟩ := ih c' base r2 hw hs' hdt ⟨by rw [h2]; exact hC, by rw [h2]; exact hdiv, by rw [h1]; exact hb⟩
      exact ⟨r', hr', by rw [hn', h3]⟩
    cases e with
    | note n =>
      obtain ⟨⟨t, ht⟩, hd, hgr, hch, hw'⟩ := hw
      have hconv : convertDuration r.ticksPerQuarter env.globalTicksPerQuarter (if n.kind = .grace then 0 else n.dur) = some t := by
        rw [hg]
        apply quarters_convert hC hdiv
        split
        · rename_i hk; rw [hgr hk] at ht; exact ht
        · exact ht
      have hstaff : noteStaffIndex n = n.staff.getD 1 - 1 ∧ noteStaffIndex n < env.numStaves := by
        unfold noteStaffIndex
        cases hst : n.staff with
        | none => have := hs.1; simp; omega
        | some s =>
          obtain ⟨h1, h2⟩ := hs.2.1 n (by simp) s hst
          simp
          rw [if_neg (by omega)]; omega
      simp only [readElems, parseElem, parseNote, hconv, Option.bind_eq_bind, Option.bind_some]
      rw [if_neg (by omega)]
      simp only [Option.bind_some]
      generalize hla : nextNoteIsChord false es = la
      have hla' : nextIsChord es = la := by rw [nextIsChord_eq, hla]
      -- tick of the note
      have hstart : (r.tick : ℚ) = c.start n * G := by
        unfold Clock.start
        cases hb : base with
        | none =>
          rw [hb] at hbase
          simp only [nextIsChord] at hbase
          rw [hbase.2]; simpa using hbase.1
        | some b =>
          rw [hb] at hbase
          exact hbase.2
      obtain ⟨r', hr', hn'⟩ := ih (c.step (.note n)) (if n.chord then base else some n.dur)
        { r with
          isBackupInProgress := false
          tick := if (!(n.chord || la) || !la) = true then r.tick + t else r.tick
          notes := r.notes ++ [{ staff := noteStaffIndex n, voice := r.voiceIndex, note := parseNoteData (n.chord || la) r.tick t n }] }
        hw' hs' hdt (by
          refine ⟨hC, ?_, ?_⟩
          · simp only [Clock.step]; split <;> exact hdiv
          · cases hnc : n.chord with
            | false =>
              simp only [Bool.false_eq_true, if_false, Clock.step, hnc]
              refine ⟨rfl, ?_⟩
              have hstart' : (r.tick : ℚ) = c.pos * G := by simpa [Clock.start, hnc] using hstart
              rw [hla']
              cases la with
              | true => simpa using hstart'
              | false =>
                simp only [Bool.or_false, Bool.not_false, Bool.or_true, if_true, Bool.false_eq_true, if_false]
                push_cast
                rw [hstart', ← ht]; ring
            | true =>
              simp only [if_true, Clock.step, hnc]
              obtain ⟨hsome, hlast⟩ := hch hnc
              cases hb : base with
              | none => rw [hb] at hsome; cases hsome
              | some b =>
                rw [hb] at hbase
                refine ⟨hbase.1, ?_⟩
                have hstart' : (r.tick : ℚ) = c.onset * G := by simpa [Clock.start, hnc] using hstart
                rw [hla']
                cases la with
                | true => simpa using hstart'
                | false =>
                  have hl := hlast hla'
                  rw [hb] at hl
                  have hl : b = n.dur := by simpa using hl
                  simp only [Bool.or_false, Bool.not_false, Bool.or_true, if_true, Bool.false_eq_true, if_false]
                  push_cast
                  rw [hstart', ← ht, hbase.1, hl]; ring)
      exact ⟨r', hr', by rw [hn']; rfl⟩
    | backup d =>
      obtain ⟨⟨t, ht⟩, hpos, hw'⟩ := hw
      have hconv : convertDuration r.ticksPerQuarter env.globalTicksPerQuarter d = some t := by
        rw [hg]; exact quarters_convert hC hdiv ht
      have hnx := wellTimed_none hw'
      have htick : (r.tick : ℚ) = c.pos * G := by
        cases hb : base with
        | none => rw [hb] at hbase; exact hbase.1
        | some b => rw [hb] at hbase; exact tick_of_next hnx hbase.2
      have hnew : ((r.tick - t : Int) : ℚ) = (c.step (P := P) (.backup d)).pos * G := by
        push_cast; simp only [Clock.step]; rw [htick, ← ht]; ring
      have hge : 0 ≤ r.tick - t := by
        have : (0 : ℚ) ≤ ((r.tick - t : Int) : ℚ) := by rw [hnew]; exact mul_nonneg hpos hGpos.le
        exact_mod_cast this
      simp only [readElems, parseElem, parseBackup, hconv, Option.bind_eq_bind, Option.bind_some]
      rw [if_neg (by omega)]
      obtain ⟨r', hr', hn'⟩ := ih (c.step (P := P) (.backup d)) none
        { r with
          voiceIndex := if r.isBackupInProgress = true then r.voiceIndex else r.voiceIndex + 1
          isBackupInProgress := true
          tick := r.tick + -1 * t } hw' hs' hdt ⟨hC, by simpa [Clock.step] using hdiv, by
            rw [← hnew]; simp only; congr 1; omega, hnx⟩
      exact ⟨r', hr', by rw [hn']; rfl⟩
    | forward d =>
      obtain ⟨⟨t, ht⟩, hpos, hw'⟩ := hw
      have hconv : convertDuration r.ticksPerQuarter env.globalTicksPerQuarter d = some t := by
        rw [hg]; exact quarters_convert hC hdiv ht
      have hnx := wellTimed_none hw'
      have htick : (r.tick : ℚ) = c.pos * G := by
        cases hb : base with
        | none => rw [hb] at hbase; exact hbase.1
        | some b => rw [hb] at hbase; exact tick_of_next hnx hbase.2
      simp only [readElems, parseElem, parseForward, hconv, Option.bind_eq_bind, Option.bind_some]
      obtain ⟨r', hr', hn'⟩ := ih (c.step (P := P) (.forward d)) none
        { r with isBackupInProgress := false, tick := r.tick + t } hw' hs' hdt ⟨hC, by simpa [Clock.step] using hdiv, by
            simp only [Clock.step]; push_cast; rw [htick, ← ht]; ring, hnx⟩
      exact ⟨r', hr', by rw [hn']; rfl⟩
    | direction s o p =>
      simp only [readElems, parseElem, parseDirection, Option.bind_eq_bind]
      rw [if_neg (by have := hs.1; omega)]
      simp only [Option.bind_some]
      exact key c rfl hw hdt hbase _ rfl rfl rfl
    | barline l p =>
      simp only [readElems, parseElem, parseBarline, Option.bind_eq_bind, Option.bind_some]
      exact key c rfl hw hdt hbase _ rfl rfl rfl
    | other =>
      simp only [readElems, parseElem, Option.bind_eq_bind, Option.bind_some]
      exact key c rfl hw hdt hbase _ rfl rfl rfl
    | attributes a =>
      obtain ⟨hk, hw'⟩ := hw
      obtain ⟨hnx0, hst, hdt⟩ := hdt
      have hplace : (a.clefs.map (fun x => (clefStaff x, ({ tick := r.tick, content := x.content } : Timed P)))).map (clefPlace G) = a.clefs.map (fun x => (c.pos, staffIndexOf x.number, x.content)) := by
        rw [List.map_map]
        apply List.map_congr_left
        intro x hx
        have hnx := hnx0 (List.ne_nil_of_mem hx)
        have htick : (r.tick : ℚ) = c.pos * G := by
          cases hb : base with
          | none => rw [hb] at hbase; exact hbase.1
          | some b => rw [hb] at hbase; exact tick_of_next hnx hbase.2
        simp only [Function.comp, clefPlace, htick]
        refine Prod.ext (by simp only; field_simp) (Prod.ext ?_ rfl)
        unfold clefStaff staffIndexOf
        cases hn : x.number with
        | none => rfl
        | some i => have := hst x hx i hn; simp
      have hcl : a.clefs.any (fun c => decide (env.numStaves ≤ clefStaff c)) = false := by
        rw [List.any_eq_false]
        intro x hx
        have := hs.2.2 a (by simp) x hx
        have h1 := hs.1
        unfold clefStaff
        cases hnum : x.number with
        | none => simp; omega
        | some s => have := this s hnum; simp; omega
      simp only [readElems, parseElem, parseProperties, hcl, Option.bind_eq_bind, Bool.false_eq_true, if_false, Option.bind_some]
      cases hd : a.divisions with
      | none =>
        rw [hd] at hw'
        have hcs : c.step (Elem.attributes a) = c := by simp [Clock.step, hd]
        rw [hcs] at hw'
        obtain ⟨r', hr', hn'⟩ := ih c base
          { r with
            isBackupInProgress := false
            ticksPerQuarter := r.ticksPerQuarter
            keys := r.keys ++ a.keys.map (parseKey env r.tick)
            clefs := r.clefs ++ a.clefs.map (fun c => (clefStaff c, { tick := r.tick, content := c.content })) }
          hw' hs' hdt ⟨hC, hdiv, hbase⟩
        refine ⟨r', hr', ?_⟩
        rw [hn']
        rw [List.map_append, hplace, placedClefs, hcs, List.append_assoc]
      | some d =>
        obtain ⟨k, hk0, hkd⟩ := hk d hd
        rw [hd] at hw'
        simp only [Option.isSome_some, if_true] at hw'
        have hcs : c.step (Elem.attributes a) = { c with division := 1000000 / (d : ℚ) } := by simp [Clock.step, hd]
        have hnx := wellTimed_none hw'
        have htick : (r.tick : ℚ) = c.pos * G := by
          cases hb : base with
          | none => rw [hb] at hbase; exact hbase.1
          | some b => rw [hb] at hbase; exact tick_of_next hnx hbase.2
        have hround : roundMicro d = k := by rw [hkd]; exact roundMicro_mul k
        rw [hcs] at hw'
        obtain ⟨r', hr', hn'⟩ := ih { c with division := 1000000 / (d : ℚ) } none
          { r with
            isBackupInProgress := false
            ticksPerQuarter := roundMicro d
            keys := r.keys ++ a.keys.map (parseKey env r.tick)
            clefs := r.clefs ++ a.clefs.map (fun c => (clefStaff c, { tick := r.tick, content := c.content })) }
          hw' hs' hdt ⟨by simp only [hround]; exact hk0, by
            simp only [hround]
            rw [hkd]
            have : (k : ℚ) ≠ 0 := by exact_mod_cast (by omega)
            push_cast
            field_simp, htick, hnx⟩
        refine ⟨r', hr', ?_⟩
        rw [hn']
        rw [List.map_append, hplace, placedClefs, hcs, List.append_assoc]

end Mx.Measure
