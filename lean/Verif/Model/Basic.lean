/-
Common vocabulary of the model: C++ `int`, `std::string`, and the formatted input
operator `std::istream >> int`, which many parsers of /repo rely on.
-/
namespace Mx

/-- `std::string`, as the list of its characters.  (mx handles strings byte by byte; a byte is
modelled by a `Char`.  Simplification: characters are not limited to 0..255.) -/
abbrev Str := List Char

/-- Largest `int` (32 bit two's complement, the platforms mx supports). -/
def INT_MAX : Int := 2147483647

/-- Smallest `int`. -/
def INT_MIN : Int := -2147483648

/-- The value fits in an `int`. -/
def InInt (x : Int) : Prop := INT_MIN ≤ x ∧ x ≤ INT_MAX

instance (x : Int) : Decidable (InInt x) := inferInstanceAs (Decidable (_ ∧ _))

/-- Result of signed `int` arithmetic: `none` is undefined behaviour (signed overflow). -/
def chk (x : Int) : Option Int := if InInt x then some x else none

/-- The ways a call can fail to return: an exception, or undefined behaviour (signed overflow, access outside a container). -/
inductive Failure where
  | throws
  | undefined
deriving Repr, DecidableEq

/-- Result of a call that may throw or have undefined behaviour. -/
abbrev Res (α : Type) := Except Failure α

instance {α : Type} [DecidableEq α] : DecidableEq (Res α) := fun a b =>
  match a, b with
  | .ok x, .ok y => if h : x = y then isTrue (by rw [h]) else isFalse (by intro e; cases e; exact h rfl)
  | .error x, .error y => if h : x = y then isTrue (by rw [h]) else isFalse (by intro e; cases e; exact h rfl)
  | .ok _, .error _ => isFalse (by intro e; cases e)
  | .error _, .ok _ => isFalse (by intro e; cases e)

/-- Signed `int` arithmetic as `Res`. -/
def chkR (x : Int) : Res Int := if InInt x then .ok x else .error .undefined

/-- `std::isspace` in the "C" locale; also the characters skipped by `>>` and `std::ws`. -/
def isWs (c : Char) : Bool :=
  c == ' ' || c == '\t' || c == '\n' || c == '\x0b' || c == '\x0c' || c == '\r'

/-- `std::ws`: drop leading white space. -/
def skipWs (s : Str) : Str := s.dropWhile isWs

/-- Outcome of `ss >> intVariable`: the value in the variable afterwards, the failbit, and
the characters not consumed. -/
structure IntRead where
  value : Int
  fail : Bool
  rest : Str
deriving Repr, DecidableEq

/-- The optional sign in front of a number: (is negative, remaining text). -/
def readSign : Str → Bool × Str
  | '-' :: t => (true, t)
  | '+' :: t => (false, t)
  | t => (false, t)

/-- `std::istream::operator>>( int& )` in base ten, on a fresh string stream holding `s`, with `old` the value of
the variable before.  Semantics of the C++11 standard ([istream.formatted.arithmetic],
[facet.num.get.virtuals]): the sentry skips white space and fails (leaving the variable alone) at end of
input; then sign and digits are taken as far as possible; no digits stores 0 and fails;
overflow stores the nearest `int` and fails. -/
def readInt (old : Int) (s : Str) : IntRead :=
  match skipWs s with
  | [] => { value := old, fail := true, rest := [] }
  | c :: t =>
    let (neg, u) := readSign (c :: t)
    let ds := u.takeWhile Char.isDigit
    let rest := u.dropWhile Char.isDigit
    if ds = [] then { value := 0, fail := true, rest := rest }
    else
      let n : Int := Nat.ofDigitChars 10 ds 0
      let v : Int := if neg then -n else n
      if v < INT_MIN then { value := INT_MIN, fail := true, rest := rest }
      else if INT_MAX < v then { value := INT_MAX, fail := true, rest := rest }
      else { value := v, fail := false, rest := rest }

/-- `std::ostream << int` with default formatting. -/
def showInt (x : Int) : Str :=
  if x < 0 then '-' :: Nat.toDigits 10 x.natAbs else Nat.toDigits 10 x.natAbs

end Mx
