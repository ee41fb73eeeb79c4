/- Small specifications shared by several properties. They do not mention the model. -/
import Verif.Py.Str

namespace Spec

/-- `i` is the least index satisfying `P`. -/
def IsLeast (P : Nat → Prop) (i : Nat) : Prop := P i ∧ ∀ j < i, ¬ P j

/-- The characters Python treats as line boundaries. -/
def boundaries : List Char :=
  ['\n', '\r', '\x0b', '\x0c', '\x1c', '\x1d', '\x1e', '\u0085', '\u2028', '\u2029']

/-- A text without any line boundary. -/
def NoBoundary (s : List Char) : Prop := ∀ c ∈ s, c ∉ boundaries

/-- A text consisting of white space only. -/
def Blank (s : List Char) : Prop := ∀ c ∈ s, Py.isSpace c = true

/-- A maximal candidate word: not empty and without white space. -/
def IsWord (w : List Char) : Prop := w ≠ [] ∧ ∀ c ∈ w, Py.isSpace c = false

/-- `ws` are the words (maximal runs of non-white-space characters) of `s`, in order. -/
inductive IsWords : List Char → List (List Char) → Prop
  | blank {s} : Blank s → IsWords s []
  | word {pre w rest ws} : Blank pre → IsWord w →
      (∀ c ∈ rest.head?, Py.isSpace c = true) → IsWords rest ws →
      IsWords (pre ++ w ++ rest) (w :: ws)

/-- `t` is `s` with the leftmost non-overlapping occurrences of `old` replaced by `new`. -/
inductive Replaced (old new : List Char) : List Char → List Char → Prop
  | done {s} : ¬ old <:+: s → Replaced old new s s
  | hit {pre rest out} : ¬ old <:+: (pre ++ old).dropLast → Replaced old new rest out →
      Replaced old new (pre ++ old ++ rest) (pre ++ new ++ out)

end Spec
