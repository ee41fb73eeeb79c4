/- The loop of `read_meshtally_file`: specification of the sections of a file and lemmas about the loop. -/
import Verif.Proofs.Meshtal
import Verif.Proofs.Str

set_option linter.unusedSectionVars false

namespace Meshtal
open Py
variable {K : Type} [Field K] [LinearOrder K] [IsStrictOrderedRing K] [FloorRing K]

/-- Kinds of header lines. -/
inductive HKind
  | particle | x | y | z | e | t | plain
  deriving DecidableEq

/-- Text that distinguishes a kind of line. -/
def HKind.marker : HKind → Str
  | .particle => p!"mesh tally."
  | .x => p!"X direction:"
  | .y => p!"Y direction:"
  | .z => p!"Z direction:"
  | .e => p!"Energy bin boundaries:"
  | .t => p!"Time bin boundaries:"
  | .plain => []

/-- Column titles. -/
def title : CType → Str
  | .e6 => p!"Energy         X         Y         Z     Result"
  | .t6 => p!"Time         X         Y         Z     Result"
  | .c5 => p!"X         Y         Z     Result"

/-- A line of a header: it has the marker of its kind and no other marker. -/
def HeaderLine (k : HKind) (l : Str) : Prop :=
  ¬ p!"Mesh Tally Number" <:+: l ∧ ¬ title .c5 <:+: l ∧ ∀ k', k' ≠ .plain → (k'.marker <:+: l ↔ k' = k)

/-- One mesh tally of a file: the line with its number, the header, the column titles and the data lines. -/
structure Sec where
  num : Int
  numLine : Str
  hdr : List (HKind × Str)
  kind : CType
  titleLine : Str
  body : List Str

/-- The lines of a section. -/
def Sec.lines (s : Sec) : List Str := s.numLine :: (s.hdr.map (·.2) ++ s.titleLine :: s.body)

/-- The section has the form of a mesh tally. -/
structure Sec.WF (s : Sec) : Prop where
  num1 : p!" Mesh Tally Number" <:+: s.numLine
  num2 : ∃ pre w, s.numLine = pre ++ ' ' :: w ∧ ' ' ∉ w ∧ pyInt w = some s.num
  num3 : ¬ title .c5 <:+: s.numLine
  num4 : ∀ k : HKind, k ≠ .plain → ¬ k.marker <:+: s.numLine
  hdr : ∀ h ∈ s.hdr, HeaderLine h.1 h.2
  tit1 : ¬ p!"Mesh Tally Number" <:+: s.titleLine
  tit2 : ∀ k : HKind, k ≠ .plain → ¬ k.marker <:+: s.titleLine
  tit3 : title s.kind <:+: s.titleLine
  tit4 : title .e6 <:+: s.titleLine → s.kind = .e6
  tit5 : title .t6 <:+: s.titleLine → s.kind ≠ .c5
  body : ∀ l ∈ s.body, ¬ p!"Mesh Tally Number" <:+: l

/-- The bounds are numbers. -/
def Sec.Numeric (flt : Str → Option K) (s : Sec) : Prop :=
  ∀ h ∈ s.hdr, h.1 = .x ∨ h.1 = .y ∨ h.1 = .z → ∀ w ∈ (splitWs h.2).drop 2, flt w ≠ none

/-- The last line of a kind. -/
def lastOf (k : HKind) (hdr : List (HKind × Str)) : Option Str := ((hdr.filter (fun h => h.1 = k)).getLast?).map (·.2)

/-- The words after the first `n` of the last line of a kind. -/
def boundsOf (k : HKind) (n : Nat) (hdr : List (HKind × Str)) : List (Bnd K) :=
  ((lastOf k hdr).map (fun l => ((splitWs l).drop n).map Bnd.str)).getD []

/-- The mesh read from a section before the conversion of the data; `c` is the type. -/
def RawOf (flt : Str → Option K) (c : Option CType) (s : Sec) (m : RawMesh K) : Prop :=
  m.idnum = some s.num ∧ m.ptype = (lastOf .particle s.hdr).map (fun l => (splitWs l).headD []) ∧
  m.xB = boundsOf .x 2 s.hdr ∧ m.yB = boundsOf .y 2 s.hdr ∧ m.zB = boundsOf .z 2 s.hdr ∧
  m.eB = boundsOf .e 3 s.hdr ∧ m.tB = boundsOf .t 3 s.hdr ∧
  calcMidPoints flt m.xB = .ok m.xM ∧ calcMidPoints flt m.yB = .ok m.yM ∧ calcMidPoints flt m.zB = .ok m.zM ∧
  m.data = s.body.map splitWs ∧ m.ctype = c

/-! ### Single lines -/

theorem fields_cases (l : Str) : fields l = splitWs l ∨ (splitWs l = [] ∧ fields l = [[]]) := by
  unfold fields
  by_cases h : splitWs l = []
  · right; rw [h]; exact ⟨rfl, rfl⟩
  · left
    apply splitOn_join h
    intro v hw hc
    have := (mem_splitWs hw).2 _ hc
    simp [isSpace_space] at this

theorem fields_drop (l : Str) (n : Nat) (hn : 0 < n) : (fields l).drop n = (splitWs l).drop n := by
  rcases fields_cases l with h | ⟨h1, h2⟩
  · rw [h]
  · rw [h1, h2]
    cases n with
    | zero => omega
    | succ n => simp

theorem fields_head (l : Str) : (fields l).headD [] = (splitWs l).headD [] := by
  rcases fields_cases l with h | ⟨h1, h2⟩
  · rw [h]
  · rw [h1, h2]; rfl

theorem splitWs_rejoin (l : Str) : splitWs (join [' '] (splitWs l)) = splitWs l :=
  splitWs_join (fun _ hw => mem_splitWs hw)

theorem infix_cons_of {c : Char} {a s : Str} (h : (c :: a) <:+: s) : a <:+: s :=
  List.IsInfix.trans ⟨[c], [], by simp⟩ h

theorem title_c5_e6 {l : Str} (h : title .e6 <:+: l) : title .c5 <:+: l :=
  List.IsInfix.trans ⟨p!"Energy         ", [], rfl⟩ h

theorem title_c5_t6 {l : Str} (h : title .t6 <:+: l) : title .c5 <:+: l :=
  List.IsInfix.trans ⟨p!"Time         ", [], rfl⟩ h

theorem calcMid_of_numeric (flt : Str → Option K) (ws : List Str) (h : ∀ v ∈ ws, flt v ≠ none) :
    ∃ m, calcMidPoints flt (ws.map Bnd.str) = .ok m := by
  have : ∃ b, (ws.map (Bnd.str (K := K))).mapM (Bnd.toF flt) = .ok b := by
    refine ⟨ws.map (fun w => (flt w).getD 0), ?_⟩
    rw [mapM_except_ok_iff, List.forall₂_map_left_iff, List.forall₂_map_right_iff]
    refine List.forall₂_same.2 ?_
    intro w hw
    cases hf : flt w with
    | none => exact absurd hf (h w hw)
    | some v => simp [Bnd.toF, hf, orErr]
  obtain ⟨b, hb⟩ := this
  unfold calcMidPoints
  rw [hb]
  exact ⟨_, rfl⟩

/-- A relation between the mesh before and after header lines. -/
def After (flt : Str → Option K) (hdr : List (HKind × Str)) (m0 m : RawMesh K) : Prop :=
  m.idnum = m0.idnum ∧ m.ptype = ((lastOf .particle hdr).map (fun l => (splitWs l).headD [])).or m0.ptype ∧
  m.xB = ((lastOf .x hdr).map (fun l => ((splitWs l).drop 2).map Bnd.str)).getD m0.xB ∧
  m.yB = ((lastOf .y hdr).map (fun l => ((splitWs l).drop 2).map Bnd.str)).getD m0.yB ∧
  m.zB = ((lastOf .z hdr).map (fun l => ((splitWs l).drop 2).map Bnd.str)).getD m0.zB ∧
  m.eB = ((lastOf .e hdr).map (fun l => ((splitWs l).drop 3).map Bnd.str)).getD m0.eB ∧
  m.tB = ((lastOf .t hdr).map (fun l => ((splitWs l).drop 3).map Bnd.str)).getD m0.tB ∧
  (calcMidPoints flt m0.xB = .ok m0.xM → calcMidPoints flt m.xB = .ok m.xM) ∧
  (calcMidPoints flt m0.yB = .ok m0.yM → calcMidPoints flt m.yB = .ok m.yM) ∧
  (calcMidPoints flt m0.zB = .ok m0.zM → calcMidPoints flt m.zB = .ok m.zM) ∧
  m.data = m0.data ∧ m.ctype = m0.ctype

theorem lastOf_cons (k : HKind) (h : HKind × Str) (t : List (HKind × Str)) :
    lastOf k (h :: t) = (lastOf k t).or (if h.1 = k then some h.2 else none) := by
  unfold lastOf
  rw [List.filter_cons]
  by_cases hk : h.1 = k
  · simp only [hk, decide_true, if_true]
    rw [List.getLast?_cons]
    cases (t.filter (fun h => decide (h.1 = k))).getLast? <;> rfl
  · simp only [hk, decide_false, if_false, Option.or_none]
    rfl

theorem After.nil (flt : Str → Option K) (m : RawMesh K) : After flt [] m m := by
  simp [After, lastOf]

theorem After.cons {flt : Str → Option K} {h : HKind × Str} {t : List (HKind × Str)} {m0 m1 m : RawMesh K}
    (h1 : After flt [h] m0 m1) (h2 : After flt t m1 m) : After flt (h :: t) m0 m := by
  obtain ⟨a1, a2, a3, a4, a5, a6, a7, a8, a9, a10, a11, a12⟩ := h1
  obtain ⟨b1, b2, b3, b4, b5, b6, b7, b8, b9, b10, b11, b12⟩ := h2
  have hsing : ∀ k, lastOf k [h] = if h.1 = k then some h.2 else none := by
    intro k
    rw [lastOf_cons]
    simp [lastOf]
  have comb : ∀ {β : Type} (k : HKind) (g : Str → β) (d : β),
      (((lastOf k t).map g).getD (((lastOf k [h]).map g).getD d)) = ((lastOf k (h :: t)).map g).getD d := by
    intro β k g d
    rw [hsing, lastOf_cons]
    cases lastOf k t <;> rfl
  refine ⟨by rw [b1, a1], ?_, by rw [b3, a3, comb], by rw [b4, a4, comb], by rw [b5, a5, comb], by rw [b6, a6, comb],
    by rw [b7, a7, comb], fun h => b8 (a8 h), fun h => b9 (a9 h), fun h => b10 (a10 h), by rw [b11, a11], by rw [b12, a12]⟩
  rw [b2, a2, hsing, lastOf_cons]
  cases lastOf .particle t <;> simp

/-- One header line. -/
theorem header_step (flt : Str → Option K) (st : RState K) (h : HKind × Str) (hl : HeaderLine h.1 h.2)
    (hin : st.inData = false) (hn : h.1 = .x ∨ h.1 = .y ∨ h.1 = .z → ∀ w ∈ (splitWs h.2).drop 2, flt w ≠ none) :
    ∃ m, readLine flt st h.2 = .ok { st with mesh := m } ∧ After flt [h] st.mesh m := by
  obtain ⟨k, l⟩ := h
  obtain ⟨inData, sel, mesh, meshes⟩ := st
  simp only at hin
  subst hin
  obtain ⟨h1, h2, h3⟩ := hl
  simp only at h1 h2 h3 hn ⊢
  have e1 : hasSub p!"Energy         X         Y         Z     Result" l = false :=
    hasSub_false_iff.2 (fun h => h2 (title_c5_e6 h))
  have e2 : hasSub p!"Time         X         Y         Z     Result" l = false :=
    hasSub_false_iff.2 (fun h => h2 (title_c5_t6 h))
  have e3 : hasSub p!"X         Y         Z     Result" l = false := hasSub_false_iff.2 h2
  have mk : ∀ k' : HKind, k' ≠ .plain → hasSub k'.marker l = decide (k' = k) := by
    intro k' hk'
    rw [Bool.eq_iff_iff, hasSub_iff, h3 k' hk', decide_eq_true_eq]
  have mx : hasSub p!"X direction:" l = decide (HKind.x = k) := mk .x (by simp)
  have my : hasSub p!"Y direction:" l = decide (HKind.y = k) := mk .y (by simp)
  have mz : hasSub p!"Z direction:" l = decide (HKind.z = k) := mk .z (by simp)
  have me : hasSub p!"Energy bin boundaries:" l = decide (HKind.e = k) := mk .e (by simp)
  have mt : hasSub p!"Time bin boundaries:" l = decide (HKind.t = k) := mk .t (by simp)
  have mp : hasSub p!"mesh tally." l = decide (HKind.particle = k) := mk .particle (by simp)
  have d2 := fields_drop l 2 (by omega)
  have d3 := fields_drop l 3 (by omega)
  unfold readLine
  simp only [mx, my, mz, me, mt, mp, e1, e2, e3, d2, d3, fields_head]
  cases k with
  | particle => exact ⟨_, rfl, by simp [After, lastOf]⟩
  | x =>
    obtain ⟨m, hm⟩ := calcMid_of_numeric flt _ (hn (by simp))
    simp only [hm]
    exact ⟨_, rfl, by simp [After, lastOf, hm, -List.map_drop]⟩
  | y =>
    obtain ⟨m, hm⟩ := calcMid_of_numeric flt _ (hn (by simp))
    simp only [hm]
    exact ⟨_, rfl, by simp [After, lastOf, hm, -List.map_drop]⟩
  | z =>
    obtain ⟨m, hm⟩ := calcMid_of_numeric flt _ (hn (by simp))
    simp only [hm]
    exact ⟨_, rfl, by simp [After, lastOf, hm, -List.map_drop]⟩
  | e => exact ⟨_, rfl, by simp [After, lastOf]⟩
  | t => exact ⟨_, rfl, by simp [After, lastOf]⟩
  | plain => exact ⟨mesh, rfl, by simp [After, lastOf]⟩

theorem nextMesh_skip {st : RState K} {l : Str} (h : ¬ p!"Mesh Tally Number" <:+: l) : nextMesh st l = some st := by
  have : hasSub p!" Mesh Tally Number" l = false := hasSub_false_iff.2 (fun h' => h (infix_cons_of h'))
  unfold nextMesh
  simp [this]

theorem readNumber_skip {n : Option Int} {st : RState K} {l : Str} (h : ¬ p!"Mesh Tally Number" <:+: l) :
    readNumber n st l = .ok st := by
  unfold readNumber
  rw [if_neg (by rw [hasSub_iff]; exact h)]
  rfl

/-- The header of a section. -/
theorem header_loop (flt : Str → Option K) (n : Option Int) (hdr : List (HKind × Str)) (rest : List Str) :
    ∀ st : RState K, st.inData = false → (∀ h ∈ hdr, HeaderLine h.1 h.2) →
      (∀ h ∈ hdr, h.1 = .x ∨ h.1 = .y ∨ h.1 = .z → ∀ w ∈ (splitWs h.2).drop 2, flt w ≠ none) →
      ∃ m, readLoop flt n st (hdr.map (·.2) ++ rest) = readLoop flt n { st with mesh := m } rest ∧
        After flt hdr st.mesh m := by
  induction hdr with
  | nil => intro st _ _ _; exact ⟨st.mesh, rfl, After.nil flt _⟩
  | cons h t ih =>
    intro st hin hl hn
    obtain ⟨m1, hm1, ha1⟩ := header_step flt st h (hl h (by simp)) hin (hn h (by simp))
    obtain ⟨m, hm, ha⟩ := ih { st with mesh := m1 } hin (fun h' hh => hl h' (by simp [hh])) (fun h' hh => hn h' (by simp [hh]))
    refine ⟨m, ?_, ha1.cons ha⟩
    rw [List.map_cons, List.cons_append, readLoop, nextMesh_skip (hl h (by simp)).1]
    simp only [readNumber_skip (hl h (by simp)).1, hm1]
    exact hm

/-- The data lines. -/
theorem body_loop (flt : Str → Option K) (n : Option Int) (body rest : List Str) :
    ∀ st : RState K, st.inData = true → (∀ l ∈ body, ¬ p!"Mesh Tally Number" <:+: l) →
      readLoop flt n st (body ++ rest) =
        readLoop flt n { st with mesh := { st.mesh with data := st.mesh.data ++ body.map splitWs } } rest := by
  induction body with
  | nil =>
    intro st _ _
    have : { st with mesh := { st.mesh with data := st.mesh.data ++ ([] : List Str).map splitWs } } = st := by simp
    rw [this]; rfl
  | cons l body ih =>
    intro st hin hb
    rw [List.cons_append, readLoop, nextMesh_skip (hb l (by simp))]
    simp only [readNumber_skip (hb l (by simp))]
    have hr : readLine flt st l = .ok { st with mesh := { st.mesh with data := st.mesh.data ++ [splitWs l] } } := by
      unfold readLine
      rw [if_pos hin, splitWs_rejoin]
    rw [hr]
    simp only
    refine (ih _ ?_ (fun l' hl' => hb l' (by simp [hl']))).trans ?_
    · exact hin
    · simp [List.append_assoc]

/-- The type given by the column titles when the mesh has type `c0` before. -/
def typeAfter (c0 : Option CType) : CType → Option CType
  | .e6 => c0
  | .t6 => some .t6
  | .c5 => some .c5

theorem title_step (flt : Str → Option K) (s : Sec) (hw : s.WF) (st : RState K) (hin : st.inData = false) :
    readLine flt st s.titleLine =
      .ok { st with inData := true, mesh := { st.mesh with ctype := typeAfter st.mesh.ctype s.kind } } := by
  have mk : ∀ k' : HKind, k' ≠ .plain → hasSub k'.marker s.titleLine = false := fun k' hk' => hasSub_false_iff.2 (hw.tit2 k' hk')
  have mx : hasSub p!"X direction:" s.titleLine = false := mk .x (by simp)
  have my : hasSub p!"Y direction:" s.titleLine = false := mk .y (by simp)
  have mz : hasSub p!"Z direction:" s.titleLine = false := mk .z (by simp)
  have me : hasSub p!"Energy bin boundaries:" s.titleLine = false := mk .e (by simp)
  have mt : hasSub p!"Time bin boundaries:" s.titleLine = false := mk .t (by simp)
  unfold readLine
  simp only [hin, mx, my, mz, me, mt]
  have h3 := hw.tit3
  have h4 := hw.tit4
  have h5 := hw.tit5
  cases hk : s.kind with
  | e6 =>
    rw [hk] at h3
    have : hasSub p!"Energy         X         Y         Z     Result" s.titleLine = true := hasSub_iff.2 h3
    simp [this, typeAfter]
  | t6 =>
    rw [hk] at h3 h4
    have a : hasSub p!"Energy         X         Y         Z     Result" s.titleLine = false :=
      hasSub_false_iff.2 (fun h => by simpa using h4 h)
    have b : hasSub p!"Time         X         Y         Z     Result" s.titleLine = true := hasSub_iff.2 h3
    simp [a, b, typeAfter]
  | c5 =>
    rw [hk] at h3 h4 h5
    have a : hasSub p!"Energy         X         Y         Z     Result" s.titleLine = false :=
      hasSub_false_iff.2 (fun h => by simpa using h4 h)
    have b : hasSub p!"Time         X         Y         Z     Result" s.titleLine = false :=
      hasSub_false_iff.2 (fun h => h5 h rfl)
    have c : hasSub p!"X         Y         Z     Result" s.titleLine = true := hasSub_iff.2 h3
    simp [a, b, c, typeAfter]

theorem lastInt_of {l pre w : Str} {t : Int} (h : l = pre ++ ' ' :: w) (hw : ' ' ∉ w) (ht : pyInt w = some t) :
    lastInt l = .ok t := by
  have h1 : splitP (· == ' ') w = [w] := splitP_of_not_mem (by
    intro c hc
    simp only [beq_eq_false_iff_ne]
    rintro rfl
    exact hw hc)
  unfold lastInt splitOn
  rw [h, splitP_append_sep (by simp), h1]
  simp [ht, orErr]

/-- A whole section read from a state outside of the data. -/
theorem sec_loop (flt : Str → Option K) (n : Option Int) (s : Sec) (hw : s.WF) (hn : s.Numeric flt) (rest : List Str)
    (c0 : Option CType) (sel : Bool) (meshes : List (RawMesh K)) :
    ∃ m, RawOf flt (typeAfter c0 s.kind) s m ∧
      readLoop flt n ⟨false, sel, { emptyMesh with ctype := c0 }, meshes⟩ (s.lines ++ rest) =
        readLoop flt n ⟨true, sel || decide (some s.num = n), m, meshes⟩ rest := by
  obtain ⟨pre, w, h1, h2, h3⟩ := hw.num2
  have hsub : hasSub p!"Mesh Tally Number" s.numLine = true := hasSub_iff.2 (infix_cons_of hw.num1)
  have hnum : ∀ st : RState K, readNumber n st s.numLine =
      .ok { st with mesh := { st.mesh with idnum := some s.num }, sel := st.sel || decide (some s.num = n) } := by
    intro st
    unfold readNumber
    rw [if_pos hsub, lastInt_of h1 h2 h3]
    rfl
  have hline : ∀ st : RState K, st.inData = false → readLine flt st s.numLine = .ok st := by
    intro st hin
    have mk : ∀ k' : HKind, k' ≠ .plain → hasSub k'.marker s.numLine = false := fun k' hk' => hasSub_false_iff.2 (hw.num4 k' hk')
    have mx : hasSub p!"X direction:" s.numLine = false := mk .x (by simp)
    have my : hasSub p!"Y direction:" s.numLine = false := mk .y (by simp)
    have mz : hasSub p!"Z direction:" s.numLine = false := mk .z (by simp)
    have me : hasSub p!"Energy bin boundaries:" s.numLine = false := mk .e (by simp)
    have mt : hasSub p!"Time bin boundaries:" s.numLine = false := mk .t (by simp)
    have mp : hasSub p!"mesh tally." s.numLine = false := mk .particle (by simp)
    have e1 : hasSub p!"Energy         X         Y         Z     Result" s.numLine = false :=
      hasSub_false_iff.2 (fun h => hw.num3 (title_c5_e6 h))
    have e2 : hasSub p!"Time         X         Y         Z     Result" s.numLine = false :=
      hasSub_false_iff.2 (fun h => hw.num3 (title_c5_t6 h))
    have e3 : hasSub p!"X         Y         Z     Result" s.numLine = false := hasSub_false_iff.2 hw.num3
    unfold readLine
    simp [hin, mx, my, mz, me, mt, mp, e1, e2, e3]
  obtain ⟨m1, hm1, ha⟩ := header_loop flt n s.hdr (s.titleLine :: (s.body ++ rest))
    ⟨false, sel || decide (some s.num = n), { ({ emptyMesh with ctype := c0 } : RawMesh K) with idnum := some s.num }, meshes⟩
    rfl hw.hdr hn
  obtain ⟨a1, a2, a3, a4, a5, a6, a7, a8, a9, a10, a11, a12⟩ := ha
  refine ⟨{ m1 with ctype := typeAfter c0 s.kind, data := s.body.map splitWs },
    ⟨a1, ?_, a3, a4, a5, a6, a7, a8 rfl, a9 rfl, a10 rfl, rfl, rfl⟩, ?_⟩
  · rw [a2]; simp [emptyMesh]
  · have hstart : s.lines ++ rest = s.numLine :: (s.hdr.map (·.2) ++ s.titleLine :: (s.body ++ rest)) := by
      simp [Sec.lines]
    rw [hstart, readLoop]
    have hnext : nextMesh (⟨false, sel, { emptyMesh with ctype := c0 }, meshes⟩ : RState K) s.numLine =
        some ⟨false, sel, { emptyMesh with ctype := c0 }, meshes⟩ := by
      unfold nextMesh; simp
    rw [hnext]
    simp only [hnum]
    rw [hline _ rfl]
    simp only
    rw [hm1, readLoop, nextMesh_skip hw.tit1]
    simp only [readNumber_skip hw.tit1]
    rw [title_step flt s hw _ rfl]
    simp only
    rw [body_loop flt n s.body rest _ rfl hw.body]
    simp only [a11, a12, emptyMesh, List.nil_append]

/-- The number line of a section met while reading data, no mesh selected. -/
theorem sec_start (flt : Str → Option K) (n : Option Int) (s : Sec) (hw : s.WF) (rest : List Str) (m : RawMesh K)
    (meshes : List (RawMesh K)) :
    readLoop flt n ⟨true, false, m, meshes⟩ (s.lines ++ rest) =
      readLoop flt n ⟨false, false, emptyMesh, meshes ++ [m]⟩ (s.lines ++ rest) := by
  have hs : hasSub p!" Mesh Tally Number" s.numLine = true := hasSub_iff.2 hw.num1
  have h1 : nextMesh (⟨true, false, m, meshes⟩ : RState K) s.numLine = some ⟨false, false, emptyMesh, meshes ++ [m]⟩ := by
    unfold nextMesh; simp [hs]
  have h2 : nextMesh (⟨false, false, emptyMesh, meshes ++ [m]⟩ : RState K) s.numLine =
      some ⟨false, false, emptyMesh, meshes ++ [m]⟩ := by
    unfold nextMesh; simp
  unfold Sec.lines
  rw [List.cons_append, readLoop, readLoop, h1, h2]

/-- The number line of a section met while reading the data of the selected mesh. -/
theorem sec_return (flt : Str → Option K) (n : Option Int) (s : Sec) (hw : s.WF) (rest : List Str) (m : RawMesh K)
    (meshes : List (RawMesh K)) :
    readLoop flt n ⟨true, true, m, meshes⟩ (s.lines ++ rest) = .ok (.inl m) := by
  have hs : hasSub p!" Mesh Tally Number" s.numLine = true := hasSub_iff.2 hw.num1
  have h1 : nextMesh (⟨true, true, m, meshes⟩ : RState K) s.numLine = none := by
    unfold nextMesh; simp [hs]
  unfold Sec.lines
  rw [List.cons_append, readLoop, h1]

/-- Sections after the first one, none of them selected. -/
theorem secs_loop (flt : Str → Option K) (n : Option Int) (secs : List Sec) (rest : List Str) :
    (∀ s ∈ secs, s.WF ∧ s.Numeric flt ∧ some s.num ≠ n) → ∀ (m0 : RawMesh K) (meshes : List (RawMesh K)),
      ∃ ms m, List.Forall₂ (fun s m => RawOf flt (typeAfter none s.kind) s m) secs ms ∧
        m0 :: ms = (m0 :: ms).dropLast ++ [m] ∧
        readLoop flt n ⟨true, false, m0, meshes⟩ (secs.flatMap Sec.lines ++ rest) =
          readLoop flt n ⟨true, false, m, meshes ++ (m0 :: ms).dropLast⟩ rest := by
  induction secs with
  | nil =>
    intro _ m0 meshes
    exact ⟨[], m0, .nil, rfl, by simp⟩
  | cons s secs ih =>
    intro hs m0 meshes
    obtain ⟨hw, hn, hne⟩ := hs s (by simp)
    obtain ⟨m1, hr, h1⟩ := sec_loop flt n s hw hn (secs.flatMap Sec.lines ++ rest) none false (meshes ++ [m0])
    obtain ⟨ms, m, h2, h3, h4⟩ := ih (fun s' hs' => hs s' (by simp [hs'])) m1 (meshes ++ [m0])
    refine ⟨m1 :: ms, m, .cons hr h2, ?_, ?_⟩
    · rw [List.dropLast_cons_cons, List.cons_append, ← h3]
    · rw [List.flatMap_cons, List.append_assoc, sec_start flt n s hw]
      have he : ({ emptyMesh with ctype := none } : RawMesh K) = emptyMesh := rfl
      rw [he] at h1
      rw [h1]
      simp only [hne, decide_false, Bool.or_false]
      rw [h4, List.dropLast_cons_cons, List.append_assoc]
      rfl

/-- Lines before the first section. -/
theorem preamble_loop (flt : Str → Option K) (n : Option Int) (pre rest : List Str) (st : RState K)
    (hin : st.inData = false) (hp : ∀ l ∈ pre, HeaderLine .plain l) :
    readLoop flt n st (pre ++ rest) = readLoop flt n st rest := by
  induction pre with
  | nil => rfl
  | cons l pre ih =>
    have hl := hp l (by simp)
    rw [List.cons_append, readLoop, nextMesh_skip hl.1]
    simp only [readNumber_skip hl.1]
    have : readLine flt st l = .ok st := by
      have mk : ∀ k' : HKind, k' ≠ .plain → hasSub k'.marker l = false := fun k' hk' =>
        hasSub_false_iff.2 (fun h => hk' ((hl.2.2 k' hk').1 h))
      have mx : hasSub p!"X direction:" l = false := mk .x (by simp)
      have my : hasSub p!"Y direction:" l = false := mk .y (by simp)
      have mz : hasSub p!"Z direction:" l = false := mk .z (by simp)
      have me : hasSub p!"Energy bin boundaries:" l = false := mk .e (by simp)
      have mt : hasSub p!"Time bin boundaries:" l = false := mk .t (by simp)
      have mp : hasSub p!"mesh tally." l = false := mk .particle (by simp)
      have e1 : hasSub p!"Energy         X         Y         Z     Result" l = false :=
        hasSub_false_iff.2 (fun h => hl.2.1 (title_c5_e6 h))
      have e2 : hasSub p!"Time         X         Y         Z     Result" l = false :=
        hasSub_false_iff.2 (fun h => hl.2.1 (title_c5_t6 h))
      have e3 : hasSub p!"X         Y         Z     Result" l = false := hasSub_false_iff.2 hl.2.1
      unfold readLine
      simp [hin, mx, my, mz, me, mt, mp, e1, e2, e3]
    rw [this]
    exact ih (fun l' hl' => hp l' (by simp [hl']))

/-- A whole file in which no mesh is selected before the end. -/
theorem file_loop (flt : Str → Option K) (n : Option Int) (pre : List Str) (s0 : Sec) (secs : List Sec) (rest : List Str)
    (hp : ∀ l ∈ pre, HeaderLine .plain l) (hs : ∀ s ∈ s0 :: secs, s.WF ∧ s.Numeric flt ∧ some s.num ≠ n) :
    ∃ ms m, List.Forall₂ (fun s m => RawOf flt (typeAfter none s.kind) s m) secs ms ∧
      ∃ m0, RawOf flt (some s0.kind) s0 m0 ∧ m0 :: ms = (m0 :: ms).dropLast ++ [m] ∧
      readLoop flt n ⟨false, false, { emptyMesh with ctype := some .e6 }, []⟩ (pre ++ ((s0 :: secs).flatMap Sec.lines ++ rest)) =
        readLoop flt n ⟨true, false, m, (m0 :: ms).dropLast⟩ rest := by
  obtain ⟨hw, hn, hne⟩ := hs s0 (by simp)
  obtain ⟨m0, hr, h1⟩ := sec_loop flt n s0 hw hn (secs.flatMap Sec.lines ++ rest) (some .e6) false []
  obtain ⟨ms, m, h2, h3, h4⟩ := secs_loop flt n secs rest (fun s hs' => hs s (by simp [hs'])) m0 []
  refine ⟨ms, m, h2, m0, ?_, h3, ?_⟩
  · have : typeAfter (some .e6) s0.kind = some s0.kind := by cases s0.kind <;> rfl
    rw [this] at hr
    exact hr
  · rw [preamble_loop flt n pre _ _ rfl hp, List.flatMap_cons, List.append_assoc, h1]
    simp only [hne, decide_false, Bool.or_false]
    rw [h4]
    rfl

/-- The meshes of a file; only the first one starts with a type. -/
def Raws (flt : Str → Option K) : List Sec → List (RawMesh K) → Prop
  | s0 :: secs, m0 :: ms =>
    RawOf flt (some s0.kind) s0 m0 ∧ List.Forall₂ (fun s m => RawOf flt (typeAfter none s.kind) s m) secs ms
  | _, _ => False

/-- A whole file up to a section; no earlier section is selected. -/
theorem file_last (flt : Str → Option K) (n : Option Int) (pre : List Str) (before : List Sec) (s : Sec) (rest : List Str)
    (hp : ∀ l ∈ pre, HeaderLine .plain l) (hb : ∀ s ∈ before, s.WF ∧ s.Numeric flt ∧ some s.num ≠ n)
    (hw : s.WF) (hn : s.Numeric flt) :
    ∃ ms m, Raws flt (before ++ [s]) (ms ++ [m]) ∧ ms.length = before.length ∧
      readLoop flt n ⟨false, false, { emptyMesh with ctype := some .e6 }, []⟩
          (pre ++ ((before ++ [s]).flatMap Sec.lines ++ rest)) =
        readLoop flt n ⟨true, decide (some s.num = n), m, ms⟩ rest := by
  cases before with
  | nil =>
    obtain ⟨m0, hr, h1⟩ := sec_loop flt n s hw hn rest (some .e6) false []
    have ht : typeAfter (some .e6) s.kind = some s.kind := by cases s.kind <;> rfl
    rw [ht] at hr
    refine ⟨[], m0, ⟨hr, .nil⟩, rfl, ?_⟩
    rw [preamble_loop flt n pre _ _ rfl hp]
    simp only [List.nil_append, List.flatMap_cons, List.flatMap_nil, List.append_nil]
    rw [h1]
    simp only [Bool.false_or]
  | cons s0 secs =>
    obtain ⟨ms, m, h2, m0, h0, h3, h4⟩ := file_loop flt n pre s0 secs (s.lines ++ rest) hp hb
    obtain ⟨m1, hr, h1⟩ := sec_loop flt n s hw hn rest none false (m0 :: ms)
    refine ⟨m0 :: ms, m1, ⟨h0, ?_⟩, by simp [h2.length_eq], ?_⟩
    · exact List.rel_append h2 (.cons hr .nil)
    · have e : pre ++ ((s0 :: secs ++ [s]).flatMap Sec.lines ++ rest) =
          pre ++ ((s0 :: secs).flatMap Sec.lines ++ (s.lines ++ rest)) := by simp
      rw [e, h4, sec_start flt n s hw, ← h3]
      have he : ({ emptyMesh with ctype := none } : RawMesh K) = emptyMesh := rfl
      rw [he] at h1
      rw [h1]
      simp only [Bool.false_or]

/-! ### Conversion of the data -/

theorem toRow_err {numeric : Str → Option (Option K)} {kind : CType} {r : List Str} {e : Err}
    (h : toRow numeric kind r = .error e) : e = .ValueError := by
  have key : ∀ c : Option Str, ∀ e', toNumeric numeric c = .error e' → e' = .ValueError := by
    intro c e' h
    cases c with
    | none => simp [toNumeric] at h
    | some s => cases hs : numeric s <;> simp_all [toNumeric, orErr]
  unfold toRow at h
  simp only [bind, Except.bind] at h
  repeat' split at h
  all_goals first
    | (simp only [Except.error.injEq] at h; subst h; rename_i hh; exact key _ _ hh)
    | (simp [pure, Except.pure] at h)

theorem convertToDf_err {numeric : Str → Option (Option K)} {m : RawMesh K} {e : Err}
    (h : convertToDf numeric m = .error e) : e = .ValueError := by
  unfold convertToDf at h
  split at h
  · simp only [Except.error.injEq] at h; exact h.symm
  · split at h
    · simp only [Except.error.injEq] at h; exact h.symm
    · simp only [bind, Except.bind] at h
      split at h
      · next hm =>
        simp only [Except.error.injEq] at h
        subst h
        obtain ⟨a, -, ha⟩ := mapM_except_err hm
        exact toRow_err ha
      · simp [pure, Except.pure] at h

theorem filterMap_if {α β : Type} (l : List α) (p : α → Bool) (f : α → β) :
    l.filterMap (fun a => if p a then some (f a) else none) = (l.filter p).map f := by
  induction l with
  | nil => rfl
  | cons a l ih =>
    cases hp : p a <;> simp [hp, ih]

end Meshtal
