import Verif.Model.ApiStructs

/-
The `operator==` of the structs of the api.
-/
namespace Mx.ApiEq

/-- A floating point number.  Simplification: numbers are exact. -/
inductive Dbl where
  | nan
  | inf (negative : Bool)
  | fin (q : Rat)
deriving DecidableEq

/-- `==` of floating point numbers: NaN is not equal to itself. -/
def Dbl.equals : Dbl → Dbl → Bool
  | .nan, _ => false
  | _, .nan => false
  | x, y => x == y

/-- `MX_API_EQUALITY_EPSILON`, include/mx/api/ApiCommon.h 17. -/
def epsilon : Rat := 1 / 100000000

/-- `std::abs( lhs - rhs ) > MX_API_EQUALITY_EPSILON`, include/mx/api/ApiEquality.h 104.  The difference of equal infinities is NaN, and a comparison with NaN is false.
Simplification: the difference is not rounded. -/
def Dbl.differ : Dbl → Dbl → Bool
  | .nan, _ => false
  | _, .nan => false
  | .inf a, .inf b => a != b
  | .inf _, .fin _ => true
  | .fin _, .inf _ => true
  | .fin p, .fin q => decide (epsilon < (if q ≤ p then p - q else q - p))

/-- Values without parts: numbers that are not floating point numbers, truth values and enumerators (as numbers), and texts. -/
inductive PlainVal where
  | int (n : Int)
  | text (s : Str)
deriving DecidableEq

/-- Values of members.  An object has a value for each of its members, in the order of declaration; a map is given by its keys in ascending order and the values in the order of the keys. -/
inductive Val where
  | plain (p : PlainVal)
  | real (x : Dbl)
  | obj (s : Struct) (fields : List Val)
  | vec (l : List Val)
  | none
  | some (v : Val)
  | intMap (keys : List Int) (vals : List Val)

/-- `MXAPI_DOUBLES_EQUALS_MEMBER`, include/mx/api/ApiEquality.h 103-108: whether the comparison goes on. -/
def nearby : Val → Val → Bool
  | .real x, .real y => !x.differ y
  | _, _ => false

mutual
/-- `==`: of plain values and floating point numbers; of objects (the `operator==` of their class); of vectors, `areVectorsEqual` include/mx/api/ApiEquality.h 18-36 and 116, and `std::vector`; of maps,
`voicesAreEqual` StaffData.h 32-53 and LayoutData.h 79-104; of `std::optional`.  Values of different types are never compared. -/
def equals : Val → Val → Bool
  | .plain a, .plain b => a == b
  | .real x, .real y => x.equals y
  | .obj s fs, .obj t gs => s == t && fieldsEqual s (s.members.map (·.1)) fs gs
  | .vec l, .vec r => l.length == r.length && eachEqual l r
  | .none, .none => true
  | .some a, .some b => equals a b
  | .intMap k l, .intMap k' r => l.length == r.length && k == k' && eachEqual l r
  | _, _ => false
/-- The members between `MXAPI_EQUALS_BEGIN` and `MXAPI_EQUALS_END`, include/mx/api/ApiEquality.h 91-112.  The members are gone through in the order of declaration; the order makes no difference to the result. -/
def fieldsEqual (s : Struct) : List Str → List Val → List Val → Bool
  | [], [], [] => true
  | m :: ms, f :: fs, g :: gs =>
    (match s.compared.lookup m with
      | .none => true
      | .some .eq => equals f g
      | .some .near => nearby f g) && fieldsEqual s ms fs gs
  | _, _, _ => false
/-- The loop of include/mx/api/ApiEquality.h 28-34; it is entered with vectors of the same size. -/
def eachEqual : List Val → List Val → Bool
  | [], _ => true
  | x :: xs, y :: ys => equals x y && eachEqual xs ys
  | _ :: _, [] => false
end

/-- `operator!=`, include/mx/api/ApiEquality.h 115. -/
def notEquals (a b : Val) : Bool := !equals a b

/-- The member of an object. -/
def Val.member (m : Str) : Val → Option Val
  | .obj s fs => ((s.members.map (·.1)).zip fs).lookup m
  | _ => Option.none

/-- `size() == 0` of a vector member. -/
def emptyMember (m : Str) (v : Val) : Bool :=
  match v.member m with
  | Option.some (.vec l) => l.isEmpty
  | _ => false

/-- `isDirectionDataEmpty`, include/mx/api/DirectionData.h 92-106. -/
def directionEmpty (v : Val) : Bool :=
  emptyMember (chars "tempos") v && emptyMember (chars "marks") v && emptyMember (chars "wedgeStarts") v && emptyMember (chars "wedgeStops") v && emptyMember (chars "bracketStarts") v
    && emptyMember (chars "bracketStops") v && emptyMember (chars "tempos") v && emptyMember (chars "ottavaStarts") v && emptyMember (chars "ottavaStops") v && emptyMember (chars "words") v
    && emptyMember (chars "segnos") v && emptyMember (chars "codas") v

end Mx.ApiEq
