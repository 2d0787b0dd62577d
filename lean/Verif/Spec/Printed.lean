import Mathlib.Algebra.Field.Basic

/-!
# Printed expressions

Expressions as Python prints and reads them, and what they mean.  A word is a name or a whole number.
-/

namespace Verif.Spec.Printed

abbrev Text := List Char

inductive Ex
  /-- `x` or `12` -/
  | word (t : Text)
  /-- `1.5` -/
  | dec (t u : Text)
  /-- `x**3` -/
  | pow (w d : Text)
  /-- `pow(x, 3)`, with spaces `s` -/
  | powCall (w s d : Text)
  /-- `(e)` -/
  | par (e : Ex)
  /-- `(e)**3` -/
  | parPow (e : Ex) (d : Text)
  /-- `f(e)` -/
  | call (f : Text) (e : Ex)
  /-- `a*b` -/
  | mul (a b : Ex)
  /-- `a/b` -/
  | div (a b : Ex)
  /-- `-a` -/
  | neg (a : Ex)
  /-- `a + b` -/
  | add (a b : Ex)
  /-- `a - b` -/
  | sub (a b : Ex)

/-- The text. -/
def text : Ex → Text
  | .word t => t
  | .dec t u => t ++ '.' :: u
  | .pow w d => w ++ '*' :: '*' :: d
  | .powCall w s d => 'p' :: 'o' :: 'w' :: '(' :: (w ++ ',' :: (s ++ (d ++ [')'])))
  | .par e => '(' :: (text e ++ [')'])
  | .parPow e d => '(' :: (text e ++ ')' :: '*' :: '*' :: d)
  | .call f e => f ++ '(' :: (text e ++ [')'])
  | .mul a b => text a ++ '*' :: text b
  | .div a b => text a ++ '/' :: text b
  | .neg a => '-' :: text a
  | .add a b => text a ++ ' ' :: '+' :: ' ' :: text b
  | .sub a b => text a ++ ' ' :: '-' :: ' ' :: text b

/-- Letters, digits and the underscore. -/
def Word (t : Text) : Prop := t ≠ [] ∧ ∀ c ∈ t, c.isAlphanum ∨ c = '_'

def Digits (t : Text) : Prop := t ≠ [] ∧ ∀ c ∈ t, c.isDigit

def Spaces (t : Text) : Prop := ∀ c ∈ t, c = ' '

/-- The number written by decimal digits, the last of them the ones. -/
def number : Text → ℕ
  | [] => 0
  | c :: d => (c.toNat - 48) * 10 ^ d.length + number d

/-- The grammar: `n = 0` factors, `n = 1` products and quotients, `n = 2` sums and differences.  Exponents are
at least 1, and the base of `pow(w, d)` has no `pow` in its name. -/
def Reads : ℕ → Ex → Prop
  | _, .word t => Word t
  | _, .dec t u => Digits t ∧ Digits u
  | _, .pow w d => Word w ∧ Digits d ∧ 1 ≤ number d
  | _, .powCall w s d => Word w ∧ ¬ ['p', 'o', 'w'] <:+: w ∧ Spaces s ∧ Digits d ∧ 1 ≤ number d
  | _, .par e => Reads 2 e
  | _, .parPow e d => Reads 2 e ∧ Digits d
  | _, .call f e => Word f ∧ Reads 2 e
  | n, .mul a b => 1 ≤ n ∧ Reads 1 a ∧ Reads 0 b
  | n, .div a b => 1 ≤ n ∧ Reads 1 a ∧ Reads 0 b
  | n, .neg a => 2 ≤ n ∧ Reads 1 a
  | n, .add a b => 2 ≤ n ∧ Reads 2 a ∧ Reads 1 b
  | n, .sub a b => 2 ≤ n ∧ Reads 2 a ∧ Reads 1 b

/-- Values of words, of decimals and functions. -/
structure Meaning (K : Type*) where
  word : Text → K
  dec : Text → Text → K
  fn : Text → K → K

variable {K : Type*} [Field K]

/-- The value. -/
def eval (ν : Meaning K) : Ex → K
  | .word t => ν.word t
  | .dec t u => ν.dec t u
  | .pow w d => ν.word w ^ number d
  | .powCall w _ d => ν.word w ^ number d
  | .par e => eval ν e
  | .parPow e d => eval ν e ^ number d
  | .call f e => ν.fn f (eval ν e)
  | .mul a b => eval ν a * eval ν b
  | .div a b => eval ν a / eval ν b
  | .neg a => -eval ν a
  | .add a b => eval ν a + eval ν b
  | .sub a b => eval ν a - eval ν b

/-- The powers of words in an expression, as printed with `**`. -/
def powers : Ex → List (Text × Text)
  | .word _ => []
  | .dec _ _ => []
  | .pow w d => [(w, d)]
  | .powCall _ _ _ => []
  | .par e => powers e
  | .parPow e _ => powers e
  | .call _ e => powers e
  | .mul a b => powers a ++ powers b
  | .div a b => powers a ++ powers b
  | .neg a => powers a
  | .add a b => powers a ++ powers b
  | .sub a b => powers a ++ powers b

/-- The calls of `pow`. -/
def calls : Ex → List (Text × Text × Text)
  | .word _ => []
  | .dec _ _ => []
  | .pow _ _ => []
  | .powCall w s d => [(w, s, d)]
  | .par e => calls e
  | .parPow e _ => calls e
  | .call _ e => calls e
  | .mul a b => calls a ++ calls b
  | .div a b => calls a ++ calls b
  | .neg a => calls a
  | .add a b => calls a ++ calls b
  | .sub a b => calls a ++ calls b

end Verif.Spec.Printed
