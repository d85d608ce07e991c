import Verif.Model.Basic

/-
Model of private/mx/impl/LcmGcd.cpp.
-/
namespace Mx.LcmGcd

/-- `std::abs( int )`; undefined for `INT_MIN`. -/
def absInt (a : Int) : Res Int := chkR (a.natAbs : Int)

/-- The loop of `greatestCommonDivisor( int, int )`, private/mx/impl/LcmGcd.cpp 20-27 (two steps of the body per
iteration; both numbers are non-negative there). -/
def gcdLoop (a b : Nat) : Nat :=
  if ha : a = 0 then b
  else
    if hb : b % a = 0 then a
    else gcdLoop (a % (b % a)) (b % a)
termination_by a
decreasing_by
  have h1 := Nat.mod_lt a (Nat.pos_of_ne_zero hb)
  have h2 := Nat.mod_lt b (Nat.pos_of_ne_zero ha)
  omega

/-- `greatestCommonDivisor( int a, int b )`, private/mx/impl/LcmGcd.cpp 16-28. -/
def gcd2 (a b : Int) : Res Int := do
  let a ← absInt a
  let b ← absInt b
  .ok (gcdLoop a.natAbs b.natAbs)

/-- The loop over the list, private/mx/impl/LcmGcd.cpp 51-62. -/
def gcdRest : Bool → Int → List Int → Res Int
  | _, gcd, [] => .ok gcd
  | zeroEncountered, gcd, x :: xs =>
    if x = 0 ∧ zeroEncountered = true then .error .throws
    else do
      let gcd ← gcd2 gcd x
      gcdRest (zeroEncountered || x == 0) gcd xs

/-- `greatestCommonDivisor( std::initializer_list<int> )`, private/mx/impl/LcmGcd.cpp 31-66. -/
def gcdList : List Int → Res Int
  | [] => .ok 1
  | [x] => do
    let gcd ← absInt x
    .ok (if gcd = 0 then 1 else gcd)
  | x :: xs => gcdRest (x == 0) x xs

/-- `leastCommonMultiple( int a, int b )`, private/mx/impl/LcmGcd.cpp 69-80. -/
def lcm2 (a b : Int) : Res Int := do
  let temp ← gcd2 a b
  let answer ← if temp ≠ 0 then chkR (a.tdiv temp * b) else .ok 0
  if answer < 0 then chkR (answer * -1) else .ok answer

/-- The loop of the set version, private/mx/impl/LcmGcd.cpp 107-114. -/
def lcmRest : Int → List Int → Res Int
  | answer, [] => .ok answer
  | answer, b :: bs =>
    if b = 0 then .error .throws
    else do
      let answer ← lcm2 answer b
      lcmRest answer bs

/-- `leastCommonMultiple( const std::set<int>& )`, private/mx/impl/LcmGcd.cpp 83-117; the set is the list of its elements in
ascending order.  (The loop starts with the second element again, as in the code.) -/
def lcmSet : List Int → Res Int
  | [] => .ok 0
  | [a] => if a = 0 then .error .throws else absInt a
  | a :: b :: rest =>
    if a = 0 ∨ b = 0 then .error .throws
    else do
      let answer ← lcm2 a b
      lcmRest answer (b :: rest)

end Mx.LcmGcd
