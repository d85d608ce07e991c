import Verif.Proofs.Content

/-
The tables of the classes against the content models of the schema.
-/
open Mx.Spec
namespace Mx.Content

/-- Bounds that hold after every history of calls. -/
def reachable : Limits where
  lo c i := min (memberSet c i).start (min (memberSet c i).least (memberSet c i).clear)
  hi c i := (memberSet c i).most
  choice _ _ := true

/-- Bounds for careful programs. -/
def careful : Limits where
  lo c i := match c with
    | .NoteheadText => 1
    | .TimewiseMeasure => 1
    | c => reachable.lo c i
  hi := reachable.hi
  choice c k := match c with
    | .PercussionChoice => !Nat.beq k 9 && !Nat.beq k 10
    | _ => true

def noOver : Cls → Option Re := fun _ => none

/-- What a careful program can have in `time` and `ornaments`. -/
def carefulOver : Cls → Option Re
  | .TimeChoice => some Schema.ct_time
  | .Ornaments => some Schema.ct_ornaments
  | _ => none

def schemaOf (d : Nat) : Option Re := (Schema.decls.find? fun p => Nat.beq p.1 d).map (·.2)

theorem schemaOf_mem {d : Nat} {r : Re} (h : schemaOf d = some r) : (d, r) ∈ Schema.decls := by
  unfold schemaOf at h
  cases hf : Schema.decls.find? (fun p => Nat.beq p.1 d) with
  | none => rw [hf] at h; cases h
  | some p =>
    rw [hf] at h
    simp only [Option.map_some, Option.some.injEq] at h
    have h1 := List.mem_of_find?_eq_some hf
    have h2 := List.find?_some hf
    have h3 : p.1 = d := Nat.eq_of_beq_eq_true h2
    rw [← h, ← h3]; exact h1

def checkClass (L : Limits) (ov : Cls → Option Re) (c : Cls) : Bool :=
  Nat.beq c.info.name 0 || match schemaOf (classDecl c) with
    | none => false
    | some r => Re.included (elementRe L ov c) r

def carelessB (c : Cls) : Bool := match c with
  | .NoteheadText => true | .Time => true | .TimewiseMeasure => true | .Ornaments => true | .Percussion => true | _ => false

set_option maxRecDepth 100000 in
theorem check_reachable : allCls.all (fun c => carelessB c || checkClass reachable noOver c) = true := by decide +kernel

set_option maxRecDepth 100000 in
theorem check_careful : allCls.all (fun c => checkClass careful carefulOver c) = true := by decide +kernel

end Mx.Content
