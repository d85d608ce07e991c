import Verif.Spec.BarlineTime
import Verif.Proofs.KeyPass
import Verif.Proofs.MeasureComplete

/-! The MusicXML clock and the barlines. -/
namespace Mx.Measure
open _root_.Spec

variable {P : Type}

theorem placedBarlines_append : ∀ (xs ys : List (Elem P)) (c : Clock), placedBarlines c (xs ++ ys) = placedBarlines c xs ++ placedBarlines (runClock c xs) ys := by
  intro xs
  induction xs with
  | nil => intro ys c; rfl
  | cons e xs ih => intro ys c; cases e <;> simp [placedBarlines, runClock, ih]

theorem placedBarlines_none : ∀ (xs : List (Elem P)) (c : Clock), xs.flatMap Elem.barRecs = [] → placedBarlines c xs = [] := by
  intro xs
  induction xs with
  | nil => intro c _; rfl
  | cons e xs ih =>
    intro c h
    rw [List.flatMap_cons, List.append_eq_nil_iff] at h
    cases e with
    | barline l x => simp [Elem.barRecs] at h
    | _ => exact ih _ h.2

theorem takeWhile_every {X : Type} {p : X → Bool} : ∀ {l : List X}, (∀ x ∈ l, p x = true) → l.takeWhile p = l := by
  intro l
  induction l with
  | nil => intro _; rfl
  | cons a l ih => intro h; rw [List.takeWhile_cons, if_pos (h a (by simp)), ih (fun x hx => h x (by simp [hx]))]

/-- The location that is written. -/
theorem placed_barElem (G : Int) (c : Clock) (b : BarlineData P) (h : b.location = .center → c.pos = (b.tick : ℚ) / G) :
    placedBarlines c [barlineElem b] = [(expectedPlace G b, b.content)] := by
  unfold barlineElem expectedPlace
  simp only [placedBarlines]
  cases hl : b.location with
  | center => rw [h hl]; rfl
  | left => rfl
  | right => rfl
  | unspecified => by_cases ht : b.tick = 0 <;> simp [ht, barPlace]

theorem placed_bars (G : Int) : ∀ (bs : List (BarlineData P)) (c : Clock), (∀ b ∈ bs, b.location = .center → c.pos = (b.tick : ℚ) / G) →
    placedBarlines c (bs.map barlineElem) = bs.map (fun b => (expectedPlace G b, b.content)) := by
  intro bs
  induction bs with
  | nil => intro c _; rfl
  | cons b bs ih =>
    intro c h
    have e : (b :: bs).map barlineElem = [barlineElem b] ++ bs.map barlineElem := rfl
    rw [e, placedBarlines_append, placed_barElem G c b (h b (by simp)), ih]
    · rfl
    · intro x hx; exact h x (by simp [hx])

theorem barlines_measure {G : Int} (env : WEnv) (m : MeasureData P) (d : ℚ) (h1 : 1 ≤ env.numStaves) (hs : (m.staves.length : Int) ≤ env.numStaves) (hb : BarlinesMet m.barlines) :
    placedBarlines (Clock.init d) (writeMeasure env m) = expectedBarlines G m := by
  obtain ⟨mid, h, hm⟩ := measure_bars env m h1 hs
  have hsplit : m.barlines = m.barlines.takeWhile (fun b => decide (b.tick ≤ 0)) ++ m.barlines.dropWhile (fun b => decide (b.tick ≤ 0)) := List.takeWhile_append_dropWhile.symm
  have hall : (m.barlines.dropWhile (fun b => decide (b.tick ≤ 0))).takeWhile (fun b => decide (b.tick ≤ TICK_TIME_INFINITY)) = m.barlines.dropWhile (fun b => decide (b.tick ≤ 0)) := by
    apply takeWhile_every
    intro b hb'
    exact decide_eq_true (hb.1 b ((List.dropWhile_sublist _).subset hb'))
  rw [h, hall, placedBarlines_append, placedBarlines_append, placedBarlines_none mid _ hm, List.nil_append, placed_bars G, placed_bars G, ← List.map_append, ← hsplit]
  · rfl
  · intro b hb' hc
    exfalso
    obtain ⟨x, y, hxy⟩ := List.append_of_mem hb'
    have := hb.2 (m.barlines.takeWhile (fun b => decide (b.tick ≤ 0)) ++ x) b y (by rw [List.append_assoc, ← hxy]; exact hsplit) hc
    cases hd : m.barlines.dropWhile (fun b => decide (b.tick ≤ 0)) with
    | nil => rw [hd] at hb'; cases hb'
    | cons a as =>
      have ha : ¬ a.tick ≤ 0 := by
        have := List.head?_dropWhile_not (fun b : BarlineData P => decide (b.tick ≤ 0)) m.barlines
        rw [hd] at this
        simpa using this
      rw [hd] at hxy
      cases x with
      | nil =>
        simp only [List.nil_append, List.cons.injEq] at hxy
        rw [hxy.1] at ha
        omega
      | cons z x =>
        simp only [List.cons_append, List.cons.injEq] at hxy
        exact ha (this.2 a (by rw [hxy.1]; simp))
  · intro b hb' hc
    obtain ⟨x, y, hxy⟩ := List.append_of_mem hb'
    have e : m.barlines = x ++ b :: (y ++ m.barlines.dropWhile (fun b => decide (b.tick ≤ 0))) := by
      conv_lhs => rw [hsplit, hxy]
      rw [List.append_assoc, List.cons_append]
    have := (hb.2 _ b _ e hc).1
    rw [this]; simp [Clock.init]

/-- place and contents of a barline that was read -/
def barOf (G : Int) (b : BarlineData P) : BarPlace × P := (expectedPlace G b, b.content)

end Mx.Measure
