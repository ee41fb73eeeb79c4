/- Property C238: mesh tallies that are not written as columns of Cartesian coordinates and one value. -/
import Mathlib.Data.Rat.Floor
import Verif.Proofs.Except
import Verif.Props.MeshtalReader

set_option linter.unusedSectionVars false

namespace Props
open Py Meshtal
variable {K : Type} [Field K] [LinearOrder K] [IsStrictOrderedRing K] [FloorRing K]

/-! ### C238 -/

/-- The line is the heading of columns of Cartesian coordinates. The heading of a cylindrical mesh is
    "Energy         R         Z         Th    Result", and matrices have none. -/
def XyzHeading (l : Str) : Prop := p!"X         Y         Z     Result" <:+: l

instance : DecidablePred XyzHeading := fun l => decidable_of_iff (hasSub p!"X         Y         Z     Result" l = true) hasSub_iff

/-- The line starts a mesh tally. -/
def NumberLine (l : Str) : Prop := p!"Mesh Tally Number" <:+: l

instance : DecidablePred NumberLine := fun l => decidable_of_iff (hasSub p!"Mesh Tally Number" l = true) hasSub_iff

private theorem calc_bind {α : Type} {x : Except Err α} {f : α → Except Err (RState K)} {st : RState K}
    (h : (x >>= f) = .ok st) : ∃ a, f a = .ok st := by
  rw [ex_bind_ok] at h
  obtain ⟨a, -, h⟩ := h
  exact ⟨a, h⟩

private theorem readLine_state (flt : Str → Option K) (st st' : RState K) (l : Str) (h : readLine flt st l = .ok st') :
    st'.meshes = st.meshes ∧ (¬ XyzHeading l → st'.inData = st.inData) ∧
    (st.inData = false → st'.mesh.data = st.mesh.data) ∧ (st.inData = false → st'.inData = false → st'.mesh.ctype = st.mesh.ctype) := by
  have hE : hasSub p!"Energy         X         Y         Z     Result" l = true → XyzHeading l := fun h =>
    List.IsInfix.trans ⟨p!"Energy         ", [], rfl⟩ (hasSub_iff.1 h)
  have hT : hasSub p!"Time         X         Y         Z     Result" l = true → XyzHeading l := fun h =>
    List.IsInfix.trans ⟨p!"Time         ", [], rfl⟩ (hasSub_iff.1 h)
  have hX : hasSub p!"X         Y         Z     Result" l = true → XyzHeading l := fun h => hasSub_iff.1 h
  unfold readLine at h
  by_cases hin : st.inData = true
  · rw [if_pos hin] at h
    cases h
    exact ⟨rfl, fun _ => rfl, by simp [hin], by simp [hin]⟩
  rw [if_neg hin] at h
  by_cases hh : hasSub p!"X direction:" l = true
  · rw [if_pos hh] at h
    obtain ⟨m, h⟩ := calc_bind h; cases h; exact ⟨rfl, fun _ => rfl, fun _ => rfl, fun _ _ => rfl⟩
  rw [if_neg hh] at h
  clear hh
  by_cases hh : hasSub p!"Y direction:" l = true
  · rw [if_pos hh] at h
    obtain ⟨m, h⟩ := calc_bind h; cases h; exact ⟨rfl, fun _ => rfl, fun _ => rfl, fun _ _ => rfl⟩
  rw [if_neg hh] at h
  clear hh
  by_cases hh : hasSub p!"Z direction:" l = true
  · rw [if_pos hh] at h
    obtain ⟨m, h⟩ := calc_bind h; cases h; exact ⟨rfl, fun _ => rfl, fun _ => rfl, fun _ _ => rfl⟩
  rw [if_neg hh] at h
  clear hh
  by_cases hh : hasSub p!"Energy bin boundaries:" l = true
  · rw [if_pos hh] at h
    cases h; exact ⟨rfl, fun _ => rfl, fun _ => rfl, fun _ _ => rfl⟩
  rw [if_neg hh] at h
  clear hh
  by_cases hh : hasSub p!"Time bin boundaries:" l = true
  · rw [if_pos hh] at h
    cases h; exact ⟨rfl, fun _ => rfl, fun _ => rfl, fun _ _ => rfl⟩
  rw [if_neg hh] at h
  clear hh
  by_cases hh : hasSub p!"Energy         X         Y         Z     Result" l = true
  · rw [if_pos hh] at h
    cases h; exact ⟨rfl, fun hn => absurd (hE hh) hn, fun _ => rfl, fun _ h0 => absurd h0 (by simp)⟩
  rw [if_neg hh] at h
  clear hh
  by_cases hh : hasSub p!"Time         X         Y         Z     Result" l = true
  · rw [if_pos hh] at h
    cases h; exact ⟨rfl, fun hn => absurd (hT hh) hn, fun _ => rfl, fun _ h0 => absurd h0 (by simp)⟩
  rw [if_neg hh] at h
  clear hh
  by_cases hh : hasSub p!"X         Y         Z     Result" l = true
  · rw [if_pos hh] at h
    cases h; exact ⟨rfl, fun hn => absurd (hX hh) hn, fun _ => rfl, fun _ h0 => absurd h0 (by simp)⟩
  rw [if_neg hh] at h
  clear hh
  by_cases hh : hasSub p!"mesh tally." l = true
  · rw [if_pos hh] at h
    cases h; exact ⟨rfl, fun _ => rfl, fun _ => rfl, fun _ _ => rfl⟩
  · rw [if_neg hh] at h
    cases h; exact ⟨rfl, fun _ => rfl, fun _ => rfl, fun _ _ => rfl⟩

private theorem readNumber_state (n : Option Int) (st st' : RState K) (l : Str) (h : readNumber n st l = .ok st') :
    st'.meshes = st.meshes ∧ st'.inData = st.inData ∧ st'.mesh.data = st.mesh.data ∧ st'.mesh.ctype = st.mesh.ctype := by
  unfold readNumber at h
  split at h
  · obtain ⟨m, h⟩ := calc_bind h; cases h; exact ⟨rfl, rfl, rfl, rfl⟩
  · cases h; exact ⟨rfl, rfl, rfl, rfl⟩

/-- Without headings of Cartesian columns the loop stays outside the data. -/
private theorem loop_no_heading (flt : Str → Option K) (n : Option Int) (ls : List Str) (hls : ∀ l ∈ ls, ¬ XyzHeading l) (st : RState K)
    (hin : st.inData = false) (r : RawMesh K ⊕ RState K) (h : readLoop flt n st ls = .ok r) :
    ∃ st', r = .inr st' ∧ st'.meshes = st.meshes ∧ st'.mesh.data = st.mesh.data ∧ st'.mesh.ctype = st.mesh.ctype := by
  induction ls generalizing st with
  | nil =>
    simp only [readLoop, Except.ok.injEq] at h
    exact ⟨st, h.symm, rfl, rfl, rfl⟩
  | cons l ls ih =>
    rw [readLoop] at h
    have hnm : nextMesh st l = some st := by simp [nextMesh, hin]
    rw [hnm] at h
    simp only at h
    cases hn : readNumber n st l with
    | error e => rw [hn] at h; cases h
    | ok st2 =>
      rw [hn] at h
      simp only at h
      obtain ⟨a1, a2, a3, a4⟩ := readNumber_state n st st2 l hn
      cases hr : readLine flt st2 l with
      | error e => rw [hr] at h; cases h
      | ok st3 =>
        rw [hr] at h
        simp only at h
        obtain ⟨b1, b2, b3, b4⟩ := readLine_state flt st2 st3 l hr
        have hin3 : st3.inData = false := by rw [b2 (hls l (by simp)), a2, hin]
        obtain ⟨st', h1, h2, h3, h4⟩ := ih (fun l hl => hls l (by simp [hl])) st3 hin3 h
        refine ⟨st', h1, by rw [h2, b1, a1], by rw [h3, b3 (by rw [a2, hin]), a3], ?_⟩
        rw [h4, b4 (by rw [a2, hin]) hin3, a4]

/-- C238 is violated: a file without headings of Cartesian columns - cylindrical meshes, or matrices - is read as one mesh without any
    values, however many meshes and values it has. -/
theorem C238_empty_violated (flt : Str → Option K) (numeric : Str → Option (Option K)) (n : Option Int) (text : Str) (r : ReadResult K)
    (hx : ∀ l ∈ keepLines text, ¬ XyzHeading l) (h : readMeshtallyText flt numeric n text = .ok r) :
    ∃ m, r = .all [m] ∧ m.data = ⟨.e6, []⟩ := by
  unfold readMeshtallyText at h
  split at h
  · cases h
  · rename_i m hm
    obtain ⟨st', hst, -⟩ := loop_no_heading flt n _ hx _ rfl _ hm
    cases hst
  · rename_i st hst
    obtain ⟨st', hst', h1, h2, h3⟩ := loop_no_heading flt n _ hx _ rfl _ hst
    cases hst'
    simp only [emptyMesh] at h1 h2 h3
    have hc : convertToDf numeric st.mesh = .ok ⟨.e6, []⟩ := by
      unfold convertToDf
      rw [h3, h2]
      rfl
    rw [h1, List.nil_append] at h
    have hmap : [st.mesh].mapM (fun m => (convertToDf numeric m).map m.withData) = .ok [st.mesh.withData ⟨.e6, []⟩] := by
      rw [List.mapM_cons, hc]
      rfl
    rw [hmap] at h
    simp only [Except.ok.injEq] at h
    exact ⟨_, h.symm, rfl⟩

/-- At most one mesh is kept for each heading. -/
private theorem loop_count (flt : Str → Option K) (n : Option Int) (ls : List Str) (st st' : RState K)
    (h : readLoop flt n st ls = .ok (.inr st')) :
    st'.meshes.length + (if st'.inData then 1 else 0) ≤
      st.meshes.length + (if st.inData then 1 else 0) + ls.countP (fun l => decide (XyzHeading l)) := by
  induction ls generalizing st with
  | nil =>
    simp only [readLoop, Except.ok.injEq, Sum.inr.injEq] at h
    subst h
    simp
  | cons l ls ih =>
    rw [readLoop] at h
    split at h
    · cases h
    rename_i st1 hnm
    have hc1 : st1.meshes.length + (if st1.inData then 1 else 0) ≤ st.meshes.length + (if st.inData then 1 else 0) := by
      unfold nextMesh at hnm
      split at hnm
      · rename_i hb
        simp only [Bool.and_eq_true] at hb
        split at hnm
        · cases hnm
        · simp only [Option.some.injEq] at hnm
          subst hnm
          simp [hb.1]
      · simp only [Option.some.injEq] at hnm
        subst hnm
        exact le_rfl
    split at h
    · cases h
    rename_i st2 hn
    obtain ⟨a1, a2, -, -⟩ := readNumber_state n st1 st2 l hn
    split at h
    · cases h
    rename_i st3 hr
    obtain ⟨b1, b2, -, -⟩ := readLine_state flt st2 st3 l hr
    have := ih st3 h
    rw [List.countP_cons]
    by_cases hx : XyzHeading l
    · have h3 : (if st3.inData = true then 1 else 0) ≤ 1 := by split <;> omega
      have h1 : 0 ≤ (if st1.inData = true then 1 else 0) := by omega
      rw [b1, a1] at this
      simp only [hx, decide_true, if_true]
      omega
    · rw [b1, b2 hx, a1, a2] at this
      simp only [hx, decide_false, Bool.false_eq_true, if_false]
      omega

/-- C238 is violated: the file returns at most one mesh more than it has headings of Cartesian columns; if two or more of its meshes have no
    such heading, meshes are lost without a message. -/
theorem C238_lost_violated (flt : Str → Option K) (numeric : Str → Option (Option K)) (n : Option Int) (text : Str) (ms : List (Mesh K (Frame K)))
    (hmore : (keepLines text).countP (fun l => decide (XyzHeading l)) + 2 ≤ (keepLines text).countP (fun l => decide (NumberLine l)))
    (h : readMeshtallyText flt numeric n text = .ok (.all ms)) :
    ms.length < (keepLines text).countP (fun l => decide (NumberLine l)) := by
  unfold readMeshtallyText at h
  split at h
  · cases h
  · cases h
  · rename_i st hst
    have hc := loop_count flt n _ _ st hst
    simp only [List.length_nil, Bool.false_eq_true, if_false, Nat.zero_add] at hc
    split at h
    · rename_i ms' hms
      simp only [Except.ok.injEq, ReadResult.all.injEq] at h
      subst h
      have hl := (mapM_except_ok_iff.1 hms).length_eq
      simp only [List.length_append, List.length_cons, List.length_nil] at hl
      omega
    · cases h

/-- C238 (part that holds): rows with more columns than coordinates, value and error, such as those with volumes, are refused: ValueError. -/
theorem C238_columns_partial (flt : Str → Option K) (numeric : Str → Option (Option K)) (pre : List Str) (secs : List Sec) (text : Str)
    (hf : FileOf flt pre secs text) (s : Sec) (hs : s ∈ secs) (l : Str) (hl : l ∈ s.body) (hw : 6 < (splitWs l).length) :
    readMeshtallyText flt numeric none text = .error .ValueError := by
  have hne : secs ≠ [] := by rintro rfl; cases hs
  refine read_error flt numeric pre secs hne text hf ?_
  intro ms hms
  have hdata : ∃ m ∈ ms, m.data = s.body.map splitWs := by
    cases secs with
    | nil => cases hs
    | cons s0 secs =>
      cases ms with
      | nil => exact absurd hms (by simp [Raws])
      | cons m0 ms =>
        obtain ⟨h0, h1⟩ := hms
        rcases List.mem_cons.1 hs with rfl | hs
        · exact ⟨m0, by simp, h0.2.2.2.2.2.2.2.2.2.2.1⟩
        · obtain ⟨i, hi, rfl⟩ := List.mem_iff_getElem.1 hs
          have hi' : i < ms.length := h1.length_eq ▸ hi
          have hr := h1.get hi hi'
          exact ⟨ms[i], by simp, hr.2.2.2.2.2.2.2.2.2.2.1⟩
  obtain ⟨m, hm, hd⟩ := hdata
  refine ⟨m, hm, .ValueError, ?_⟩
  have hmax : ∀ (xs : List Nat) (a x : Nat), x ∈ xs → x ≤ xs.foldl max a := by
    intro xs
    induction xs with
    | nil => intro a x hx; cases hx
    | cons y ys ih =>
      intro a x hx
      have hge : ∀ (ys : List Nat) (b : Nat), b ≤ ys.foldl max b := by
        intro ys
        induction ys with
        | nil => intro b; exact le_rfl
        | cons z zs ih2 => intro b; exact le_trans (le_max_left b z) (ih2 (max b z))
      rcases List.mem_cons.1 hx with rfl | hx
      · exact le_trans (le_max_right a x) (hge ys _)
      · exact ih _ x hx
  have hlen : (splitWs l).length ≤ (m.data.map List.length).foldl max 0 := by
    refine hmax _ _ _ ?_
    rw [hd]
    simp only [List.map_map, List.mem_map]
    exact ⟨l, hl, rfl⟩
  have hne' : m.data ≠ [] := by rw [hd]; intro h0; rw [List.map_eq_nil_iff] at h0; rw [h0] at hl; cases hl
  unfold convertToDf
  cases hct : m.ctype with
  | none => rfl
  | some kind =>
    have hk : kind.ncols ≤ 6 := by cases kind <;> decide
    simp only
    rw [if_pos ⟨hne', by omega⟩]

/-- A cylindrical mesh as MCNP writes it. -/
private def exCylinder : Str :=
  p!" Mesh Tally Number         4\n neutron  mesh tally.\n\n    R direction:      0.00      2.00\n    Z direction:      0.00      2.00\n" ++
  p!"    Theta direction (revolutions):     0.000     1.000\n\n   Energy         R         Z         Th    Result     Rel Error\n" ++
  p!"  1.000E+00     1.000     1.000     0.500 2.00000E-05 1.00000E-01\n"

example : ∀ l ∈ keepLines exCylinder, ¬ XyzHeading l := by decide +kernel
example : (match readMeshtallyText (fun _ => some (1 : ℚ)) (fun _ => some (some 1)) none exCylinder with
    | .ok (.all [m]) => m.idnum == some 4 && m.data.rows.isEmpty
    | _ => false) = true := by decide +kernel
example : (keepLines (exCylinder ++ exCylinder)).countP (fun l => decide (XyzHeading l)) + 2 ≤
    (keepLines (exCylinder ++ exCylinder)).countP (fun l => decide (NumberLine l)) := by decide +kernel
example : 6 < (splitWs p!"  1.000E+00   -18.000   -18.000   -18.000 2.00000E-05 1.00000E-01 6.40000E+01 1.28000E-03").length := by decide +kernel

end Props
