/-
The ASCII ptrac file of MCNP, as its header describes it: the numbers of a line are the variables whose identifiers the header lists. The
identifiers are those of the MCNP manual and of the header of /repo/tests/test_output/ptrak_asc_all.
-/
import Verif.Spec.Common

namespace Spec.Ptrac

/-- The kinds of event: source, bank, surface, collision, termination. -/
inductive Kind
  | src | bnk | sur | col | ter
  deriving DecidableEq

/-- The values of an event. `next` is the type of the event that follows (9000 after the last one); `a` and `b` are the one or two variables
    that are particular to the kind of event (source type; nucleus and reaction; surface and angle; termination type and branch). -/
structure Rec (F : Type) where
  next : F
  node : F
  a : F
  b : F
  particle : F
  cell : F
  material : F
  collisions : F
  x : F
  y : F
  z : F
  u : F
  v : F
  w : F
  energy : F
  weight : F
  time : F

/-- The identifiers of the variables of the first line of an event. The particle is only written when the file has particles of several kinds. -/
def ids1 (multi : Bool) (k : Kind) : List Nat :=
  [7, 8] ++ (match k with | .src => [9] | .bnk => [10, 11] | .sur => [12, 13] | .col => [10, 11] | .ter => [14, 15]) ++
    (if multi then [16] else []) ++ [17, 18, 19]

/-- The identifiers of the second line with `write=all`, and with `write=pos`. -/
def ids2 : List Nat := [20, 21, 22, 23, 24, 25, 26, 27, 28]
def ids2Pos : List Nat := [20, 21, 22]

/-- The value of a variable. -/
def Rec.var {F : Type} (r : Rec F) : Nat → F
  | 7 => r.next
  | 8 => r.node
  | 9 => r.a
  | 10 => r.a
  | 11 => r.b
  | 12 => r.a
  | 13 => r.b
  | 14 => r.a
  | 15 => r.b
  | 16 => r.particle
  | 17 => r.cell
  | 18 => r.material
  | 19 => r.collisions
  | 20 => r.x
  | 21 => r.y
  | 22 => r.z
  | 23 => r.u
  | 24 => r.v
  | 25 => r.w
  | 26 => r.energy
  | 27 => r.weight
  | _ => r.time

/-- The line shows the variables. -/
def Shows {F : Type} (flt : List Char → Option F) (r : Rec F) (ids : List Nat) (l : List Char) : Prop :=
  ∃ ws, IsWords l ws ∧ List.Forall₂ (fun i w => flt w = some (r.var i)) ids ws

/-- The two lines of every event. -/
inductive Events {F : Type} (flt : List Char → Option F) (multi : Bool) (second : List Nat) : List (Kind × Rec F) → List (List Char) → Prop
  | nil : Events flt multi second [] []
  | cons {k r es l1 l2 ls} : Shows flt r (ids1 multi k) l1 → Shows flt r second l2 → Events flt multi second es ls →
      Events flt multi second ((k, r) :: es) (l1 :: l2 :: ls)

/-- A history: its number, the type of its first event, and its events. -/
structure Hist (F : Type) where
  nps : Int
  first : F
  events : List (Kind × Rec F)

/-- The type of each event: the first is on the line of the history, the others on the lines of the event before. -/
def Hist.types {F : Type} (h : Hist F) : List F := (h.first :: h.events.map (fun e => e.2.next)).dropLast

/-- The identifiers of the whole header: those of the line of a history, then those of the kinds of event. -/
def allIds (multi : Bool) (second : List Nat) : List Nat :=
  [1, 2] ++ [Kind.src, .bnk, .sur, .col, .ter].flatMap (fun k => ids1 multi k ++ second)

/-- The numbers of words of the lines on which `n` numbers are written, `per` on a line. -/
def lineLengths (per : Nat) (n : Nat) : List Nat :=
  List.replicate (n / per) per ++ (if n % per = 0 then [] else [n % per])

end Spec.Ptrac
