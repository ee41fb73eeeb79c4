/-
Python `str` operations used by neutron_tools, as total functions on lists of characters.
A Python string is a `List Char`.  Simplifications: `lower`, `upper`, `isDigit` act on ASCII only.
-/
import Mathlib.Data.List.Basic
import Mathlib.Data.List.DropRight

namespace Py

/-- A Python `str`. -/
abbrev Str := List Char

open Lean in
/-- `p!"abc"` is the explicit character list `['a', 'b', 'c']`. -/
macro:max "p!" s:str : term => do
  let elems ← s.getString.toList.toArray.mapM fun c =>
    pure (⟨Syntax.mkCharLit c⟩ : TSyntax `term)
  `(([$elems,*] : List Char))

/-- `str.isspace` for one character (full Unicode white space set of CPython). -/
def isSpace (c : Char) : Bool :=
  let n := c.toNat
  (9 ≤ n && n ≤ 13) || (28 ≤ n && n ≤ 32) || n == 0x85 || n == 0xA0 || n == 0x1680 ||
  (0x2000 ≤ n && n ≤ 0x200A) || n == 0x2028 || n == 0x2029 || n == 0x202F || n == 0x205F ||
  n == 0x3000

/-- Characters at which `str.splitlines` cuts. -/
def isLineBreak (c : Char) : Bool :=
  let n := c.toNat
  (10 ≤ n && n ≤ 13) || (28 ≤ n && n ≤ 30) || n == 0x85 || n == 0x2028 || n == 0x2029

/-- `s.startswith(pre)`. -/
def startsWith (s pre : Str) : Bool := pre.isPrefixOf s

/-- `s.endswith(suf)`. -/
def endsWith (s suf : Str) : Bool := suf.isSuffixOf s

/-- `sub in s`. -/
def hasSub (sub : Str) : Str → Bool
  | [] => sub.isEmpty
  | c :: cs => sub.isPrefixOf (c :: cs) || hasSub sub cs

/-- `s[a:b]` for non-negative bounds. -/
def slice (s : List α) (a b : Nat) : List α := (s.take b).drop a

/-- Cut at every character satisfying `p` (the characters themselves are dropped). -/
def splitP (p : Char → Bool) : Str → List Str
  | [] => [[]]
  | c :: cs =>
    if p c then [] :: splitP p cs
    else match splitP p cs with
      | [] => [[c]]
      | l :: ls => (c :: l) :: ls

/-- `s.split(c)` for a one-character separator. -/
def splitOn (c : Char) (s : Str) : List Str := splitP (· == c) s

/-- `s.split()`. -/
def splitWs (s : Str) : List Str := (splitP isSpace s).filter (fun w => !w.isEmpty)

/-- `sep.join(xs)`. -/
def join (sep : Str) : List Str → Str
  | [] => []
  | [x] => x
  | x :: y :: xs => x ++ (sep ++ join sep (y :: xs))

/-- `s.lstrip()`. -/
def lstrip (s : Str) : Str := s.dropWhile isSpace

/-- `s.rstrip()`. -/
def rstrip (s : Str) : Str := s.rdropWhile isSpace

/-- `s.strip()`. -/
def strip (s : Str) : Str := rstrip (lstrip s)

/-- `s.strip(chars)`. -/
def stripChars (chars : Str) (s : Str) : Str :=
  (s.dropWhile (fun c => chars.contains c)).rdropWhile (fun c => chars.contains c)

/-- Left-to-right non-overlapping replacement; `skip` counts characters of a match still to be dropped. -/
def replaceAux (old new : Str) : Nat → Str → Str
  | _, [] => []
  | k + 1, _ :: cs => replaceAux old new k cs
  | 0, c :: cs =>
    if old.isPrefixOf (c :: cs) then new ++ replaceAux old new (old.length - 1) cs
    else c :: replaceAux old new 0 cs

/-- `s.replace(old, new)`; an empty `old` matches before every character and at the end. -/
def replace (s old new : Str) : Str :=
  if old.isEmpty then s.flatMap (fun c => new ++ [c]) ++ new else replaceAux old new 0 s

/-- `s.splitlines()`. -/
def splitlines : Str → List Str
  | [] => []
  | '\r' :: '\n' :: cs => [] :: splitlines cs
  | c :: cs =>
    if isLineBreak c then [] :: splitlines cs
    else match splitlines cs with
      | [] => [[c]]
      | l :: ls => (c :: l) :: ls

/-- Universal newline translation done by text mode `read`. -/
def univNL : Str → Str
  | [] => []
  | '\r' :: '\n' :: cs => '\n' :: univNL cs
  | c :: cs => (if c = '\r' then '\n' else c) :: univNL cs

/-- Iterating over a text file: lines cut after `\n` only, terminator kept. -/
def keepLines : Str → List Str
  | [] => []
  | c :: cs =>
    if c = '\n' then [c] :: keepLines cs
    else match keepLines cs with
      | [] => [[c]]
      | l :: ls => (c :: l) :: ls

/-- `s.lower()` (ASCII). -/
def lower (s : Str) : Str := s.map Char.toLower

/-- `s.upper()` (ASCII). -/
def upper (s : Str) : Str := s.map Char.toUpper

/-- `c.isdigit()` (ASCII). -/
def isDigit (c : Char) : Bool := c.isDigit

/-- `s.isdigit()` for a whole string. -/
def strIsDigit (s : Str) : Bool := !s.isEmpty && s.all isDigit

/-- `str(n)` for a natural number. -/
def natStr (n : Nat) : Str := Nat.toDigits 10 n

/-- `str(n)` for an integer. -/
def intStr : Int → Str
  | .ofNat n => natStr n
  | .negSucc n => '-' :: natStr (n + 1)

/-- Value of a digit string with optional single underscores between digits; `acc` is the value so far. -/
def natDigits : Nat → Str → Option Nat
  | acc, [] => some acc
  | acc, '_' :: c :: cs => if c.isDigit then natDigits (acc * 10 + (c.toNat - 48)) cs else none
  | acc, c :: cs => if c.isDigit then natDigits (acc * 10 + (c.toNat - 48)) cs else none

/-- Unsigned part of `int(s)`. -/
def pyNat : Str → Option Nat
  | [] => none
  | c :: cs => if c.isDigit then natDigits (c.toNat - 48) cs else none

/-- `int(s)`; `none` stands for ValueError. -/
def pyInt (s : Str) : Option Int :=
  match strip s with
  | '-' :: cs => (pyNat cs).map (fun n => -(n : Int))
  | '+' :: cs => (pyNat cs).map (fun n => (n : Int))
  | cs => (pyNat cs).map (fun n => (n : Int))

/-- `l[i]` for a possibly negative index; `none` stands for IndexError. -/
def getI (l : List α) (i : Int) : Option α :=
  if 0 ≤ i then l[i.toNat]? else if (-i).toNat ≤ l.length then l[l.length - (-i).toNat]? else none

/-- Clamp a slice bound the way Python does. -/
def clamp (n : Nat) (i : Int) : Nat :=
  if 0 ≤ i then min i.toNat n else n - min (-i).toNat n

/-- `l[a:b]` for arbitrary integer bounds. -/
def sliceI (l : List α) (a b : Int) : List α := slice l (clamp l.length a) (clamp l.length b)

end Py
