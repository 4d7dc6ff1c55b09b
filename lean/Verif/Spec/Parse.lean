import Mathlib.Algebra.Order.Field.Rat
/-!
# Specification of numeric literals

What a string of characters has to look like to be a hexadecimal or a decimal literal, and the rational number
it then denotes.  Nothing here refers to the model.
-/

namespace Apf.Spec

/-- The value of a digit (upper or lower case letters), if `c` is a digit of base 16. -/
def digit? (c : Char) : Option ℕ :=
  ("0123456789abcdef".toList.idxOf? c).or ("0123456789ABCDEF".toList.idxOf? c)

/-- `c` is a digit of the given base (at most 16). -/
def IsDigit (base : ℕ) (c : Char) : Prop := ∃ d, digit? c = some d ∧ d < base

/-- The number written by a string of digits. -/
def number (base : ℕ) (cs : List Char) : ℕ := cs.foldl (fun n c => base * n + (digit? c).getD 0) 0

/-- A significand of the given base: digits, at least one, with at most one point anywhere among them.  `ip` and
`fp` are the digits before and after the point. -/
def IsSignificand (base : ℕ) (s ip fp : List Char) : Prop :=
  (∀ c ∈ ip, IsDigit base c) ∧ (∀ c ∈ fp, IsDigit base c) ∧ ip ++ fp ≠ [] ∧
  ((fp = [] ∧ s = ip) ∨ s = ip ++ '.' :: fp)

/-- The number a significand denotes. -/
def significandValue (base : ℕ) (ip fp : List Char) : ℚ := number base (ip ++ fp) / (base : ℚ) ^ fp.length

/-- An exponent: an optional sign, then decimal digits (possibly none). -/
def IsExponent (s ds : List Char) (e : ℤ) : Prop :=
  (∀ c ∈ ds, IsDigit 10 c) ∧
  ((s = ds ∧ e = number 10 ds) ∨ (s = '+' :: ds ∧ e = number 10 ds) ∨ (s = '-' :: ds ∧ e = -(number 10 ds : ℤ)))

/-- A hexadecimal literal (after its `0x`) denoting `v`: a significand, `p`, and an exponent of 2 with at least
one digit. -/
def IsHex (s : List Char) (v : ℚ) : Prop :=
  ∃ m ip fp x ds e, IsSignificand 16 m ip fp ∧ IsExponent x ds e ∧ ds ≠ [] ∧
    (s = m ++ 'p' :: x ∨ s = m ++ 'P' :: x) ∧ v = significandValue 16 ip fp * 2 ^ e

/-- A decimal literal denoting `v`: a significand, optionally followed by `e` and an exponent of 10. -/
def IsDec (s : List Char) (v : ℚ) : Prop :=
  ∃ m ip fp, IsSignificand 10 m ip fp ∧
    ((s = m ∧ v = significandValue 10 ip fp) ∨
     ∃ x ds e, IsExponent x ds e ∧ (s = m ++ 'e' :: x ∨ s = m ++ 'E' :: x) ∧ v = significandValue 10 ip fp * 10 ^ e)

/-- A number with few decimal digits: zero, or `N * 10^D` with `N < 2^127`, not a multiple of ten, and `|D| ≤ 54`. -/
def ShortDecimal (v : ℚ) : Prop :=
  v = 0 ∨ ∃ (N : ℕ) (D : ℤ), v = N * 10 ^ D ∧ ¬ 10 ∣ N ∧ N < 2 ^ 127 ∧ |D| ≤ 54

/-- The payload of a NaN literal: an optional `+` and digits, hexadecimal after `0x`, octal after another leading
`0`, decimal otherwise. -/
def IsPayloadNumber (s : List Char) (n : ℕ) : Prop :=
  ∃ base ds t, ds ≠ [] ∧ (∀ c ∈ ds, IsDigit base c) ∧ n = number base ds ∧ (t = ds ∨ t = '+' :: ds) ∧
    ((base = 16 ∧ (s = '0' :: 'x' :: t ∨ s = '0' :: 'X' :: t)) ∨
     (base = 8 ∧ s = '0' :: t) ∨
     (base = 10 ∧ s = t ∧ (s.head? = some '0' → s = ['0'])))

/-- What may follow `nan`: nothing, or a payload below `2^128`, possibly in parentheses. -/
def IsPayload (s : List Char) (p : Option ℕ) : Prop :=
  (s = [] ∧ p = none) ∨
  ∃ n, p = some n ∧ n < 2 ^ 128 ∧ (IsPayloadNumber s n ∨ ∃ t, s = '(' :: t ++ [')'] ∧ IsPayloadNumber t n)

/-- A NaN literal, signaling or quiet, with or without payload. -/
def IsNaNLiteral (s : List Char) (signaling : Bool) (p : Option ℕ) : Prop :=
  ∃ pre pl, ((signaling = false ∧ pre = []) ∨ (signaling = true ∧ (pre = ['s'] ∨ pre = ['S']))) ∧ IsPayload pl p ∧
    (s = pre ++ "nan".toList ++ pl ∨ s = pre ++ "NaN".toList ++ pl)

/-- The optional sign of a literal. -/
inductive LitSign where
  | none | plus | minus
  deriving DecidableEq

/-- The characters of the sign. -/
def LitSign.chars : LitSign → List Char
  | .none => []
  | .plus => ['+']
  | .minus => ['-']

/-- What a literal denotes: a number, an infinity, or a NaN; with a sign. -/
inductive Lit where
  | num (neg : Bool) (v : ℚ)
  | inf (neg : Bool)
  | nan (neg signaling : Bool) (payload : Option ℕ)

/-- The language of literals.  `Inf` needs a sign, `inf` and `INFINITY` may not have a `+`, nor may NaNs. -/
inductive Denotes : List Char → Lit → Prop
  | hex (sg : LitSign) (c : Char) (t : List Char) (v : ℚ) : c = 'x' ∨ c = 'X' → IsHex t v →
      Denotes (sg.chars ++ '0' :: c :: t) (.num (sg == .minus) v)
  | dec (sg : LitSign) (t : List Char) (v : ℚ) : IsDec t v → Denotes (sg.chars ++ t) (.num (sg == .minus) v)
  | signedInf (sg : LitSign) : sg ≠ .none → Denotes (sg.chars ++ "Inf".toList) (.inf (sg == .minus))
  | inf (sg : LitSign) (t : List Char) : sg ≠ .plus → t = "inf".toList ∨ t = "INFINITY".toList →
      Denotes (sg.chars ++ t) (.inf (sg == .minus))
  | nan (sg : LitSign) (t : List Char) (q : Bool) (p : Option ℕ) : sg ≠ .plus → IsNaNLiteral t q p →
      Denotes (sg.chars ++ t) (.nan (sg == .minus) q p)

end Apf.Spec
