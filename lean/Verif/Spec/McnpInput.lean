/- Small specifications for MCNP input files. They do not mention the model. -/
import Verif.Py.Str
import Verif.Spec.Common

namespace Spec.Mcnp
open Py

/-- Continuation line: at least five blanks at the start. -/
abbrev Cont (l : Str) : Prop := p!"     " <+: l

/-- Full line comment: the letter c or C followed by a blank. -/
def Comment (l : Str) : Prop := ∃ x rest, l = x :: ' ' :: rest ∧ (x = 'c' ∨ x = 'C')

/-- The text before the first '$'. -/
def code (l : Str) : Str := l.takeWhile (· ≠ '$')

/-- Line starting with the card name (any case) followed by a blank or a colon. -/
def CardHead (card l : Str) : Prop :=
  ∃ name c rest, l = name ++ c :: rest ∧ lower name = lower card ∧ (c = ' ' ∨ c = ':')

/-- The first card in `lines` whose first line satisfies `head` has the first line `first`, followed by the lines `body`
    (continuations, comments and empty lines), followed by a line of another kind or the end. -/
def Card (head : Str → Prop) (lines : List Str) (first : Str) (body : List Str) : Prop :=
  ∃ pre rest, lines = pre ++ first :: (body ++ rest) ∧ (∀ l ∈ pre, ¬ head l) ∧ head first ∧
    (∀ l ∈ body, Cont l ∨ Comment l ∨ l = []) ∧ (∀ l ∈ rest.head?, ¬ (Cont l ∨ Comment l ∨ l = []))

/-- The text of such a card: first line and continuation lines in lower case without comments. -/
def cardText (first : Str) (body : List Str) : List Str :=
  lower (code first) :: (body.filter (fun l => decide (Cont l))).map (fun l => lower (code l))

/-- First line of material `n`: m or M, the decimal number, then a blank or the end of the line. -/
def MatHead (n : Nat) (l : Str) : Prop :=
  ∃ x rest, l = x :: (natStr n ++ rest) ∧ (x = 'm' ∨ x = 'M') ∧ (rest = [] ∨ rest.head? = some ' ')

/-- First line of tally `n`: f or F, the decimal number, then a blank, a colon or the end of the line. -/
def TalHead (n : Nat) (l : Str) : Prop :=
  ∃ x rest, l = x :: (natStr n ++ rest) ∧ (x = 'f' ∨ x = 'F') ∧
    (rest = [] ∨ rest.head? = some ' ' ∨ rest.head? = some ':')

/-- The words of a card behind the first one; `f` gives the words of a text. -/
def cardWords (f : Str → List Str) (first : Str) (body : List Str) : List Str := ((cardText first body).flatMap f).drop 1

/-- Keywords of material cards. -/
def keywordNames : List Str :=
  [p!"gas", p!"estep", p!"hstep", p!"nlib", p!"plib", p!"pnlib", p!"elib", p!"hlib", p!"alib", p!"slib", p!"tlib", p!"dlib",
   p!"cond", p!"refi", p!"refc", p!"refs"]

/-- The last pair with key `k` has the value `v`. -/
def LastWins {K V : Type} (es : List (K × V)) (k : K) (v : V) : Prop :=
  ∃ a b, es = a ++ (k, v) :: b ∧ ∀ e ∈ b, e.1 ≠ k

end Spec.Mcnp

namespace Spec.Mcnp
open Py
variable {F : Type}

/-- Characters around surface numbers in a cell geometry. -/
abbrev Deco (c : Char) : Prop := c = '(' ∨ c = ')' ∨ c = '-'

/-- A surface number with sign and brackets, whose unsigned number is `x`. -/
def SurfTok (flt : Str → Option F) (t : Str) (x : F) : Prop :=
  ∃ pre core post, t = pre ++ core ++ post ∧ (∀ c ∈ pre, Deco c) ∧ (∀ c ∈ post, Deco c) ∧ core ≠ [] ∧
    (∀ c ∈ core, c.isDigit = true ∨ c = '.') ∧ (∀ c ∈ core.head?, c.isDigit = true) ∧ flt core = some x

/-- An importance entry `imp:p=v` (any case), possibly behind blanks. -/
def ImpTok (flt : Str → Option F) (t : Str) (p : Char) (x : F) : Prop :=
  ∃ b i v, t = b ++ i ++ ':' :: p :: '=' :: v ∧ (∀ c ∈ b, c = ' ') ∧ lower i = p!"imp" ∧ p ≠ ':' ∧ p ≠ '$' ∧ v ≠ [] ∧
    (∀ c ∈ v, c ≠ '=' ∧ c ≠ '$') ∧ (∀ c ∈ v.getLast?, ¬ Deco c) ∧ flt v = some x

/-- A part of a cell's geometry: a surface or an importance. -/
def GeomTok (flt : Str → Option F) (t : Str) : F ⊕ (Char × F) → Prop
  | .inl x => SurfTok flt t x
  | .inr (p, x) => ImpTok flt t p x

end Spec.Mcnp
