import Verif.Model.DocumentManager

/-
What callers expect of the document manager: a map from ids to documents.  Stated on the history of completed calls and their results.
-/
namespace Mx.Spec
open Mx.Convert Mx.Manager

variable {H G A M S : Type}

/-- Completed calls with their results, oldest first. -/
abbrev History (H G A M S : Type) := List (Op H G A M × Ret H G A M S)

/-- The effect of one completed call on the documents that exist: a creation adds one, a destruction removes one, nothing else matters. -/
def mapAfter (docs : Int → Option (Doc H G A M)) : Op H G A M × Ret H G A M S → Int → Option (Doc H G A M)
  | (.create (some d), .id i) => fun j => if j = i then some d else docs j
  | (.destroy i, _) => fun j => if j = i then none else docs j
  | _ => docs

/-- The document that exists under each id after a history. -/
def existing (h : History H G A M S) : Int → Option (Doc H G A M) := h.foldl mapAfter (fun _ => none)

/-- The data of a document: those read from it, after conversion if it is timewise; `none` if the reader throws. -/
def dataOf (lib : Lib H G A M S) : Doc H G A M → Option S
  | .partwise p => lib.read p
  | .timewise t => (lib.read (timewisePartwise lib.fresh t)).map lib.asTimewise

/-- What `getData` should answer. -/
def dataAnswer (lib : Lib H G A M S) : Option (Doc H G A M) → Ret H G A M S
  | none => .data lib.noData
  | some d => match dataOf lib d with
    | some s => .data s
    | none => .exception

/-- Reading the document cannot alter it: it is partwise, or it is timewise, survives the conversion to partwise and back, and its data
can be read. -/
def Stable (lib : Lib H G A M S) : Doc H G A M → Prop
  | .partwise _ => True
  | .timewise t => partwiseTimewise lib.fresh (timewisePartwise lib.fresh t) = some t ∧ (lib.read (timewisePartwise lib.fresh t)).isSome

/-- The id given out by a completed creation. -/
def createdId : Op H G A M × Ret H G A M S → Option Int
  | (.create (some _), .id i) => some i
  | _ => none

/-- The number given out by a completed `getUniqueId`. -/
def uniqueId : Op H G A M × Ret H G A M S → Option Int
  | (.getUniqueId, .id i) => some i
  | _ => none

/-- A sequential execution: each call starts when the one before has returned. -/
inductive Sequential (lib : Lib H G A M S) : History H G A M S → Mem H G A M → Prop where
  | nil : Sequential lib [] Mem.init
  | snoc {h m op m' r} : Sequential lib h m → runOp lib op m = some (m', r) → Sequential lib (h ++ [(op, r)]) m'

/-- The call a thread is about to make or is making. -/
def pending : Phase H G A M S → List (Op H G A M)
  | .idle => []
  | .waiting op => [op]
  | .inside op _ _ => [op]

end Mx.Spec
