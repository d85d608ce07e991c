import Verif.Proofs.HeaderSaid

/-!
# C105: titles, creators, encoding and credits of a file

The elements before the part list, when a document is loaded and saved.
-/
open Spec
namespace Mx.Props
open Mx.Spec

/-- The titles, creators, rights, the encoding and the credits of a file say the same after any number of saves and loads. -/
theorem C105_header_partial (n : Nat) (x y : HeaderXml) (hk : HeaderKept (headerSaid x)) (h : HeaderPasses n x y) : headerSaid y = headerSaid x := by
  induction h with
  | zero x => rfl
  | succ h _ ih =>
    have e := header_said hk h
    rw [ih (by rw [e]; exact hk), e]

/-- A document with everything that is kept; the elements of the encoding are not in the order in which the program writes them. -/
def exHeader : HeaderXml :=
  { version := some (chars "3.0"), workTitle := some (chars "Lieder"), movementNumber := some [], movementTitle := some (chars "Der Doppelgänger")
    identification := some
      { creators := [⟨some (chars " composer "), chars "Schubert"⟩, ⟨some (chars "lyricist"), chars "Heine"⟩]
        rights := [⟨some (chars "copyright"), chars "none"⟩]
        encoding := some [.software (chars "A"), .supports (chars "yes") (chars "accidental") none none, .date (chars "2020-02-29"), .software (chars "B"), .encoder (chars "me"),
          .supports (chars "no") (chars "print") (some (chars "new  page")) (some (chars "yes"))]
        miscellaneous := some [(chars "key", chars "b minor")] }
    credits := [{ page := some (chars "1"), types := [chars "title"], text := chars "Der Doppelgänger" }, { text := chars "1828" }] }

example : HeaderKept (headerSaid exHeader) where
  creators := ⟨chars "Schubert", chars "Heine", by decide +kernel⟩
  rights := ⟨chars "none", by decide +kernel⟩
  encoders := ⟨chars "me", by decide +kernel⟩
  descriptions := ⟨[], by decide +kernel⟩
  dates := .inr ⟨⟨2020, 2, 29⟩, by decide, by decide +kernel⟩
  supports := by decide +kernel
  credits := by
    intro c hc
    have hc' : c ∈ [some (some (chars "1"), oneText (chars "title"), chars "Der Doppelgänger"), some (none, oneText [], chars "1828")] := hc
    rcases List.mem_cons.mp hc' with rfl | hc'
    · refine ⟨_, _, _, rfl, fun s hs => ⟨1, by decide, by decide, ?_⟩⟩
      cases hs
      exact ⟨['1'], by simp, by decide, by decide, .inl ⟨by decide, rfl, by decide⟩⟩
    · rw [List.mem_singleton.mp hc']
      exact ⟨_, _, _, rfl, fun s hs => nomatch hs⟩

example : ((headerThrough exHeader).bind headerThrough).map (fun y => (y.movementNumber, (y.identification.map (·.encoding)), y.credits.map (·.text))) = some
    (none, some (some [.encoder (chars "me"), .date (chars "2020-02-29"), .software (chars "A"), .software (chars "B"), .supports (chars "yes") (chars "accidental") none none,
      .supports (chars "no") (chars "print") (some (chars "new page")) (some (chars "yes"))]), [chars "Der Doppelgänger", chars "1828"]) := by decide +kernel

/-- Second composers, translators and rights of other types are gone; an arranger becomes a lyricist. -/
theorem C105_creators : (headerThrough { identification := some { creators := [⟨some (chars "composer"), chars "Bach"⟩, ⟨some (chars "composer"), chars "Gounod"⟩, ⟨some (chars "translator"), chars "X"⟩, ⟨some (chars "arranger"), chars "Y"⟩], rights := [⟨some (chars "arrangement"), chars "Z"⟩] } }).map (·.identification) =
    some (some { creators := [⟨some (chars "composer"), chars "Bach"⟩, ⟨some (chars "lyricist"), chars "Y"⟩] }) := by decide +kernel

/-- A creator without type becomes the composer. -/
theorem C105_no_type : (headerThrough { identification := some { creators := [⟨none, chars "Anon."⟩] } }).map (·.identification) = some (some { creators := [⟨some (chars "composer"), chars "Anon."⟩] }) := by
  decide +kernel

/-- Of several encoders and dates the first ones are kept, and an encoding date that is none becomes the first of January 1900. -/
theorem C105_encoders : (headerThrough { identification := some { encoding := some [.encoder (chars "A"), .encoder (chars "B"), .date (chars "2020")] } }).map (·.identification) =
    some (some { encoding := some [.encoder (chars "A"), .date (chars "1900-01-01")] }) := by decide +kernel

/-- Images, second types of a credit, and versions other than 3.0 are gone. -/
theorem C105_credits : headerThrough { version := some (chars "3.1"), credits := [{ isWords := false }, { types := [chars "title", chars "subtitle"], text := chars "T" }] } =
    some { credits := [{ types := [chars "title"], text := chars "T" }] } := by decide +kernel

end Mx.Props
