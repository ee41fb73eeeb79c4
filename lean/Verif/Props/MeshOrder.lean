/-
C273, C302: the order of the meshes in a mesh tally file, files one behind the other, and single meshes. The form of a file (`FileOf`, `Sec`) is that of C64.
-/
import Verif.Props.MeshtalReader
import Mathlib.Data.Rat.Floor

set_option linter.unusedSectionVars false

namespace Props
open Py Meshtal
variable {K : Type} [Field K] [LinearOrder K] [IsStrictOrderedRing K] [FloorRing K]

private theorem rawOf_fun {flt : Str → Option K} {c : Option CType} {s : Sec} {m m' : RawMesh K} (h : RawOf flt c s m)
    (h' : RawOf flt c s m') : m = m' := by
  obtain ⟨a1, a2, a3, a4, a5, a6, a7, a8, a9, a10, a11, a12⟩ := h
  obtain ⟨b1, b2, b3, b4, b5, b6, b7, b8, b9, b10, b11, b12⟩ := h'
  cases m; cases m'
  simp only at *
  subst a1 a2 a3 a4 a5 a6 a7 a11 a12 b1 b2 b3 b4 b5 b6 b7 b11 b12
  rw [a8] at b8; rw [a9] at b9; rw [a10] at b10
  cases b8; cases b9; cases b10; rfl

private theorem meshOf_fun {flt : Str → Option K} {numeric : Str → Option (Option K)} {s : Sec} {m m' : Mesh K (Frame K)}
    (h : MeshOf flt numeric s m) (h' : MeshOf flt numeric s m') : m = m' := by
  have e := rawOf_fun h.1 h'.1
  have d := h.2.trans h'.2.symm
  cases m; cases m'
  simp only [Mesh.withData, Mesh.mk.injEq] at e d ⊢
  simp [e, d]

private theorem forall₂_fun {α β : Type} {R : α → β → Prop} (hR : ∀ a b b', R a b → R a b' → b = b') {l : List α} {x y : List β}
    (h : List.Forall₂ R l x) (h' : List.Forall₂ R l y) : x = y := by
  induction h generalizing y with
  | nil => cases h'; rfl
  | cons h _ ih =>
    cases h' with
    | cons g gs => rw [hR _ _ _ h g, ih gs]

private theorem forall₂_append {α β : Type} {R : α → β → Prop} : ∀ {xs ys : List α} {l : List β}, List.Forall₂ R (xs ++ ys) l →
    ∃ a b, List.Forall₂ R xs a ∧ List.Forall₂ R ys b ∧ l = a ++ b
  | [], _, l, h => ⟨[], l, .nil, h, rfl⟩
  | _ :: xs, ys, _, .cons h t => by
    obtain ⟨a, b, h1, h2, rfl⟩ := forall₂_append (xs := xs) t
    exact ⟨_ :: a, b, .cons h h1, h2, rfl⟩

/-- C273 (part that holds): with the meshes in another order the same meshes are read, in this order. Missing: energy meshes behind another
    mesh, with which no file can be read. -/
theorem C273_order_partial (flt : Str → Option K) (numeric : Str → Option (Option K)) (pre pre' : List Str) {secs secs' : List Sec}
    (hp : secs.Perm secs') (hne : secs ≠ []) (text text' : Str) (hf : FileOf flt pre secs text) (hf' : FileOf flt pre' secs' text')
    (hd : ∀ s ∈ secs, DataWF numeric s) (hk : ∀ s ∈ secs.tail, s.kind ≠ .e6) (hk' : ∀ s ∈ secs'.tail, s.kind ≠ .e6) :
    ∃ ms ms', readMeshtallyText flt numeric none text = .ok (.all ms) ∧ readMeshtallyText flt numeric none text' = .ok (.all ms') ∧
      ms.Perm ms' := by
  obtain ⟨ms, h1, h2⟩ := C64_all_partial flt numeric pre secs hne text hf hd hk
  obtain ⟨ms', h1', h2'⟩ := C64_all_partial flt numeric pre' secs' (fun e => hne (by rw [e] at hp; exact hp.eq_nil)) text' hf'
    (fun s hs => hd s (hp.mem_iff.2 hs)) hk'
  refine ⟨ms, ms', h1, h1', ?_⟩
  obtain ⟨w, hw, hwp⟩ := List.perm_comp_forall₂ hp h2'
  rw [forall₂_fun (R := MeshOf flt numeric) (fun _ _ _ => meshOf_fun) h2 hw]
  exact hwp

/-- C273 (part that holds): the meshes of two files, one behind the other, are those of the first file followed by those of the second. -/
theorem C273_files_partial (flt : Str → Option K) (numeric : Str → Option (Option K)) (pre pre' pre'' : List Str) {secs secs' : List Sec}
    (hne : secs ≠ []) (hne' : secs' ≠ []) (text text' text'' : Str) (hf : FileOf flt pre secs text) (hf' : FileOf flt pre' secs' text')
    (hf'' : FileOf flt pre'' (secs ++ secs') text'') (hd : ∀ s ∈ secs ++ secs', DataWF numeric s)
    (hk : ∀ s ∈ secs.tail ++ secs', s.kind ≠ .e6) :
    ∃ ms ms', readMeshtallyText flt numeric none text = .ok (.all ms) ∧ readMeshtallyText flt numeric none text' = .ok (.all ms') ∧
      readMeshtallyText flt numeric none text'' = .ok (.all (ms ++ ms')) := by
  obtain ⟨ms, h1, h2⟩ := C64_all_partial flt numeric pre secs hne text hf (fun s hs => hd s (by simp [hs])) (fun s hs => hk s (by simp [hs]))
  obtain ⟨ms', h1', h2'⟩ := C64_all_partial flt numeric pre' secs' hne' text' hf' (fun s hs => hd s (by simp [hs]))
    (fun s hs => hk s (by simp [List.mem_of_mem_tail hs]))
  obtain ⟨ms'', h1'', h2''⟩ := C64_all_partial flt numeric pre'' (secs ++ secs') (by simp [hne]) text'' hf'' hd (by
    rw [List.tail_append_of_ne_nil hne]; exact hk)
  refine ⟨ms, ms', h1, h1', ?_⟩
  rw [h1'', forall₂_fun (R := MeshOf flt numeric) (fun _ _ _ => meshOf_fun) h2'' (List.rel_append h2 h2')]

/-- C273 (part that holds): a requested mesh is the same wherever it stands, but not at the end. Missing: energy meshes, and the end. -/
theorem C273_select_partial (flt : Str → Option K) (numeric : Str → Option (Option K)) (pre pre' : List Str)
    (before before' : List Sec) (s next next' : Sec) (after after' : List Sec) (text text' : Str)
    (hf : FileOf flt pre (before ++ s :: next :: after) text) (hf' : FileOf flt pre' (before' ++ s :: next' :: after') text')
    (hn : ∀ s' ∈ before, s'.num ≠ s.num) (hn' : ∀ s' ∈ before', s'.num ≠ s.num) (hk : s.kind ≠ .e6) :
    ∃ m, readMeshtallyText flt numeric (some s.num) text = .ok (.one m) ∧
      readMeshtallyText flt numeric (some s.num) text' = .ok (.one m) := by
  obtain ⟨m, h1, h2⟩ := C65_select_partial flt numeric pre before s next after text hf hn
  obtain ⟨m', h1', h2'⟩ := C65_select_partial flt numeric pre' before' s next' after' text' hf' hn'
  rw [if_pos (.inr hk)] at h2 h2'
  exact ⟨m, h1, by rw [h1', rawOf_fun h2 h2']⟩

/-- C273 is violated by energy meshes: a file that can be read cannot be read any more when the energy mesh is not at its start. -/
theorem C273_energy_violated (flt : Str → Option K) (numeric : Str → Option (Option K)) (pre pre' : List Str) (s : Sec) (secs : List Sec)
    (hk : s.kind = .e6) (hks : ∀ s ∈ secs, s.kind ≠ .e6) (text text' : Str) (hf : FileOf flt pre (s :: secs) text)
    (hf' : FileOf flt pre' (secs ++ [s]) text') (hd : ∀ s' ∈ s :: secs, DataWF numeric s') (hne : secs ≠ []) :
    (∃ ms, readMeshtallyText flt numeric none text = .ok (.all ms)) ∧
      readMeshtallyText flt numeric none text' = .error .ValueError := by
  refine ⟨?_, C64_violated flt numeric pre' (secs ++ [s]) text' hf' s ?_ hk⟩
  · obtain ⟨ms, h, _⟩ := C64_all_partial flt numeric pre (s :: secs) (by simp) text hf hd (by simpa using hks)
    exact ⟨ms, h⟩
  · rw [List.tail_append_of_ne_nil hne]; simp

/-- C273 is violated at the end of a file: a requested mesh that stands last is given with all the others. -/
theorem C273_last_violated (flt : Str → Option K) (numeric : Str → Option (Option K)) (pre pre' : List Str) (s t : Sec)
    (text text' : Str) (hf : FileOf flt pre [s, t] text) (hf' : FileOf flt pre' [t, s] text') (hn : t.num ≠ s.num)
    (hd : ∀ s' ∈ [t, s], DataWF numeric s') (hk : s.kind ≠ .e6) :
    (∃ m, readMeshtallyText flt numeric (some s.num) text = .ok (.one m)) ∧
      ∃ ms, readMeshtallyText flt numeric (some s.num) text' = .ok (.all ms) ∧ ms.length = 2 := by
  obtain ⟨m, h, _⟩ := C65_select_partial flt numeric pre [] s t [] text hf (by simp)
  obtain ⟨ms, h', h2⟩ := C65_violated flt numeric pre' [t] s text' hf' (by simpa using hn) hd (by simpa using hk)
  exact ⟨⟨m, h⟩, ms, h', h2.length_eq.symm⟩

/-- C302 (part that holds): a mesh is read in the same way as from a file that has only this mesh. Missing: energy meshes behind another
    mesh (`C302_energy_violated`). -/
theorem C302_alone_partial (flt : Str → Option K) (numeric : Str → Option (Option K)) (pre pre' : List Str) {secs : List Sec} {s : Sec} {i : Nat}
    (hi : secs[i]? = some s) (text text' : Str) (hf : FileOf flt pre secs text) (hf' : FileOf flt pre' [s] text')
    (hd : ∀ s ∈ secs, DataWF numeric s) (hk : ∀ s ∈ secs.tail, s.kind ≠ .e6) :
    ∃ ms m, readMeshtallyText flt numeric none text = .ok (.all ms) ∧ readMeshtallyText flt numeric none text' = .ok (.all [m]) ∧
      ms[i]? = some m := by
  have hs := List.mem_of_getElem? hi
  obtain ⟨ms, h1, h2⟩ := C64_all_partial flt numeric pre secs (List.ne_nil_of_mem hs) text hf hd hk
  obtain ⟨ms', h1', h2'⟩ := C64_all_partial flt numeric pre' [s] (by simp) text' hf' (by simpa using hd s hs) (by simp)
  cases h2' with
  | @cons _ m _ ms' hm ht =>
    cases ht
    refine ⟨ms, m, h1, h1', ?_⟩
    obtain ⟨hl, e⟩ := List.getElem?_eq_some_iff.1 hi
    have hl' : i < ms.length := h2.length_eq ▸ hl
    have := List.Forall₂.get h2 hl hl'
    rw [List.get_eq_getElem, List.get_eq_getElem, e] at this
    rw [List.getElem?_eq_some_iff]
    exact ⟨hl', meshOf_fun this hm⟩

/-- C302 (part that holds): if one mesh of a file is replaced by another one, all other meshes are read as before. Missing: energy meshes
    behind another mesh. -/
theorem C302_replaced_partial (flt : Str → Option K) (numeric : Str → Option (Option K)) (pre pre' : List Str) (xs ys : List Sec) (s s' : Sec)
    (text text' : Str) (hf : FileOf flt pre (xs ++ s :: ys) text) (hf' : FileOf flt pre' (xs ++ s' :: ys) text')
    (hd : ∀ t ∈ xs ++ s :: s' :: ys, DataWF numeric t) (hk : ∀ t ∈ xs.tail ++ ys, t.kind ≠ .e6)
    (hs : xs ≠ [] → s.kind ≠ .e6 ∧ s'.kind ≠ .e6) :
    ∃ a m m' b, readMeshtallyText flt numeric none text = .ok (.all (a ++ m :: b)) ∧
      readMeshtallyText flt numeric none text' = .ok (.all (a ++ m' :: b)) ∧ a.length = xs.length := by
  have tails : ∀ t, (xs ≠ [] → t.kind ≠ .e6) → ∀ r ∈ (xs ++ t :: ys).tail, r.kind ≠ .e6 := by
    intro t ht r hr
    cases xs with
    | nil => exact hk r (by simpa using hr)
    | cons x xs =>
      simp only [List.cons_append, List.tail_cons, List.mem_append, List.mem_cons] at hr hk
      rcases hr with hr | rfl | hr
      · exact hk r (.inl hr)
      · exact ht (by simp)
      · exact hk r (.inr hr)
  obtain ⟨ms, h1, h2⟩ := C64_all_partial flt numeric pre (xs ++ s :: ys) (by simp) text hf
    (fun t ht => hd t (by simp only [List.mem_append, List.mem_cons] at ht ⊢; tauto)) (tails s (fun h => (hs h).1))
  obtain ⟨ms', h1', h2'⟩ := C64_all_partial flt numeric pre' (xs ++ s' :: ys) (by simp) text' hf'
    (fun t ht => hd t (by simp only [List.mem_append, List.mem_cons] at ht ⊢; tauto)) (tails s' (fun h => (hs h).2))
  obtain ⟨a, r, ha, hr, rfl⟩ := forall₂_append h2
  obtain ⟨a', r', ha', hr', rfl⟩ := forall₂_append h2'
  cases hr with
  | @cons _ m _ b _ hb =>
    cases hr' with
    | @cons _ m' _ b' _ hb' =>
      have e := forall₂_fun (R := MeshOf flt numeric) (fun _ _ _ => meshOf_fun) ha ha'
      have e' := forall₂_fun (R := MeshOf flt numeric) (fun _ _ _ => meshOf_fun) hb hb'
      subst e e'
      exact ⟨a, m, m', b, h1, h1', ha.length_eq.symm⟩

/-- C302 (part that holds): if one mesh of a file is taken out, all other meshes are read as before. Missing: energy meshes behind another
    mesh. -/
theorem C302_removed_partial (flt : Str → Option K) (numeric : Str → Option (Option K)) (pre pre' : List Str) (xs ys : List Sec) (s : Sec)
    (hne : xs ++ ys ≠ []) (text text' : Str) (hf : FileOf flt pre (xs ++ s :: ys) text) (hf' : FileOf flt pre' (xs ++ ys) text')
    (hd : ∀ t ∈ xs ++ s :: ys, DataWF numeric t) (hk : ∀ t ∈ (xs ++ s :: ys).tail, t.kind ≠ .e6) :
    ∃ a m b, readMeshtallyText flt numeric none text = .ok (.all (a ++ m :: b)) ∧
      readMeshtallyText flt numeric none text' = .ok (.all (a ++ b)) ∧ a.length = xs.length := by
  obtain ⟨ms, h1, h2⟩ := C64_all_partial flt numeric pre (xs ++ s :: ys) (by simp) text hf hd hk
  obtain ⟨ms', h1', h2'⟩ := C64_all_partial flt numeric pre' (xs ++ ys) hne text' hf'
    (fun t ht => hd t (by simp only [List.mem_append, List.mem_cons] at ht ⊢; tauto)) (by
      intro t ht
      cases xs with
      | nil => exact hk t (by simpa using List.mem_of_mem_tail ht)
      | cons x xs =>
        refine hk t ?_
        simp only [List.cons_append, List.tail_cons, List.mem_append, List.mem_cons] at ht ⊢
        tauto)
  obtain ⟨a, r, ha, hr, rfl⟩ := forall₂_append h2
  obtain ⟨a', r', ha', hr', rfl⟩ := forall₂_append h2'
  cases hr with
  | @cons _ m _ b _ hb =>
    have e := forall₂_fun (R := MeshOf flt numeric) (fun _ _ _ => meshOf_fun) ha ha'
    have e' := forall₂_fun (R := MeshOf flt numeric) (fun _ _ _ => meshOf_fun) hb hr'
    subst e e'
    exact ⟨a, m, b, h1, h1', ha.length_eq.symm⟩

/-- C302 is violated by energy meshes: an energy mesh that can be read on its own cannot be read behind another mesh. -/
theorem C302_energy_violated (flt : Str → Option K) (numeric : Str → Option (Option K)) (pre pre' : List Str) (s t : Sec) (hk : s.kind = .e6)
    (text text' : Str) (hf : FileOf flt pre [s] text) (hf' : FileOf flt pre' [t, s] text') (hd : DataWF numeric s) :
    (∃ m, readMeshtallyText flt numeric none text = .ok (.all [m])) ∧ readMeshtallyText flt numeric none text' = .error .ValueError := by
  refine ⟨?_, C64_violated flt numeric pre' [t, s] text' hf' s (by simp) hk⟩
  obtain ⟨ms, h1, h2⟩ := C64_all_partial flt numeric pre [s] (by simp) text hf (by simpa using hd) (by simp)
  cases h2 with
  | @cons _ m _ ms _ ht => cases ht; exact ⟨m, h1⟩

/-- C297: text in front of the first mesh has no influence on what is read from a mesh tally file, nor on whether it can be read. -/
theorem C297_mesh (flt : Str → Option K) (numeric : Str → Option (Option K)) (pre pre' : List Str) {secs : List Sec} (hne : secs ≠ [])
    (text text' : Str) (hf : FileOf flt pre secs text) (hf' : FileOf flt pre' secs text') (hd : ∀ s ∈ secs, DataWF numeric s) :
    readMeshtallyText flt numeric none text = readMeshtallyText flt numeric none text' := by
  by_cases hk : ∀ s ∈ secs.tail, s.kind ≠ .e6
  · obtain ⟨ms, h1, h2⟩ := C64_all_partial flt numeric pre secs hne text hf hd hk
    obtain ⟨ms', h1', h2'⟩ := C64_all_partial flt numeric pre' secs hne text' hf' hd hk
    rw [h1, h1', forall₂_fun (R := MeshOf flt numeric) (fun _ _ _ => meshOf_fun) h2 h2']
  · push Not at hk
    obtain ⟨s, hs, hk⟩ := hk
    rw [C64_violated flt numeric pre secs text hf s hs hk, C64_violated flt numeric pre' secs text' hf' s hs hk]

private def other : Sec := { exSec with num := 14, numLine := p!" Mesh Tally Number        14\n" }

private def sampleText (l : List Sec) : Str := (l.flatMap Sec.lines).flatten

private theorem notSub {a b : Str} (h : hasSub a b = false) : ¬ a <:+: b := hasSub_false_iff.1 h

private theorem exSec_wf : exSec.WF where
  num1 := hasSub_iff.1 (by decide +kernel)
  num2 := ⟨p!" Mesh Tally Number        ", p!"4\n", rfl, by decide, by decide +kernel⟩
  num3 := notSub (by decide +kernel)
  num4 := by intro k hk; cases k <;> first | exact absurd rfl hk | exact notSub (by decide +kernel)
  hdr := by
    intro h hh
    simp only [exSec, List.mem_cons, List.not_mem_nil, or_false] at hh
    rcases hh with rfl | rfl | rfl | rfl | rfl | rfl <;>
      refine ⟨notSub (by decide +kernel), notSub (by decide +kernel), fun k hk => ?_⟩ <;>
      rw [← hasSub_iff] <;> revert hk <;> revert k <;> intro k <;> cases k <;> decide +kernel
  tit1 := notSub (by decide +kernel)
  tit2 := by intro k hk; cases k <;> first | exact absurd rfl hk | exact notSub (by decide +kernel)
  tit3 := hasSub_iff.1 (by decide +kernel)
  tit4 := fun h => absurd h (notSub (by decide +kernel))
  tit5 := fun h => absurd h (notSub (by decide +kernel))
  body := by
    intro l hl
    simp only [exSec, List.mem_singleton] at hl
    subst hl
    exact notSub (by decide +kernel)

private theorem other_wf : other.WF :=
  { exSec_wf with
    num1 := hasSub_iff.1 (by decide +kernel)
    num2 := ⟨p!" Mesh Tally Number       ", p!"14\n", rfl, by decide, by decide +kernel⟩
    num3 := notSub (by decide +kernel)
    num4 := by intro k hk; cases k <;> first | exact absurd rfl hk | exact notSub (by decide +kernel) }

private theorem ex_numeric : exSec.Numeric (fun _ => some (1 : ℚ)) := fun _ _ _ _ _ => by simp

private theorem ex_data : DataWF (fun _ => some (some (1 : ℚ))) exSec := by
  refine ⟨fun _ => ⟨p!" 1.000 1.000 1.000 1.0E-02 0.1\n", by simp [exSec], by decide +kernel⟩, ?_⟩
  intro l hl
  simp only [exSec, List.mem_singleton] at hl
  subst hl
  exact .inr ⟨by decide +kernel, by simp, by simp⟩

private def energy : Sec :=
  { exSec with num := 24, numLine := p!" Mesh Tally Number        24\n", kind := .e6,
               titleLine := p!"   Energy         X         Y         Z     Result     Rel Error\n",
               body := [p!" 2.0 1.000 1.000 1.000 1.0E-02 0.1\n"] }

private theorem energy_wf : energy.WF :=
  { exSec_wf with
    num1 := hasSub_iff.1 (by decide +kernel)
    num2 := ⟨p!" Mesh Tally Number       ", p!"24\n", rfl, by decide, by decide +kernel⟩
    num3 := notSub (by decide +kernel)
    num4 := by intro k hk; cases k <;> first | exact absurd rfl hk | exact notSub (by decide +kernel)
    tit1 := notSub (by decide +kernel)
    tit2 := by intro k hk; cases k <;> first | exact absurd rfl hk | exact notSub (by decide +kernel)
    tit3 := hasSub_iff.1 (by decide +kernel)
    tit4 := fun _ => rfl
    tit5 := fun _ => by decide
    body := by
      intro l hl
      simp only [energy, List.mem_singleton] at hl
      subst hl
      exact notSub (by decide +kernel) }

private theorem energy_data : DataWF (fun _ => some (some (1 : ℚ))) energy := by
  refine ⟨fun _ => ⟨p!" 2.0 1.000 1.000 1.000 1.0E-02 0.1\n", by simp [energy], by decide +kernel⟩, ?_⟩
  intro l hl
  simp only [energy, List.mem_singleton] at hl
  subst hl
  exact .inr ⟨by decide +kernel, by simp, by simp⟩

private theorem sample_file {l : List Sec} (h : ∀ s ∈ l, s = exSec ∨ s = other ∨ s = energy)
    (h2 : keepLines (sampleText l) = l.flatMap Sec.lines) : FileOf (fun _ => some (1 : ℚ)) [] l (sampleText l) := by
  refine ⟨h2, by simp, fun s hs => ?_⟩
  rcases h s hs with rfl | rfl | rfl
  · exact ⟨exSec_wf, ex_numeric⟩
  · exact ⟨other_wf, ex_numeric⟩
  · exact ⟨energy_wf, ex_numeric⟩

private theorem sample_data {l : List Sec} (h : ∀ s ∈ l, s = exSec ∨ s = other ∨ s = energy) :
    ∀ s ∈ l, DataWF (fun _ => some (some (1 : ℚ))) s := by
  intro s hs
  rcases h s hs with rfl | rfl | rfl
  · exact ex_data
  · exact ex_data
  · exact energy_data

/-- A file with two meshes, in both orders. -/
example : ∃ ms ms' : List (Mesh ℚ (Frame ℚ)),
    readMeshtallyText (fun _ => some 1) (fun _ => some (some 1)) none (sampleText [exSec, other]) = .ok (.all ms) ∧
    readMeshtallyText (fun _ => some 1) (fun _ => some (some 1)) none (sampleText [other, exSec]) = .ok (.all ms') ∧ ms.Perm ms' :=
  C273_order_partial _ _ [] [] (List.Perm.swap other exSec []) (by simp) _ _ (sample_file (by simp) (by decide +kernel))
    (sample_file (by simp) (by decide +kernel)) (sample_data (by simp)) (by intro s hs; simp at hs; subst hs; decide)
    (by intro s hs; simp at hs; subst hs; decide)

/-- The same with an energy mesh at the start and at the end. -/
example : (∃ ms : List (Mesh ℚ (Frame ℚ)),
    readMeshtallyText (fun _ => some 1) (fun _ => some (some 1)) none (sampleText [energy, exSec]) = .ok (.all ms)) ∧
    readMeshtallyText (fun _ => some (1 : ℚ)) (fun _ => some (some 1)) none (sampleText [exSec, energy]) = .error .ValueError :=
  C273_energy_violated _ _ [] [] energy [exSec] rfl (by intro s hs; simp at hs; subst hs; decide) _ _
    (sample_file (by simp) (by decide +kernel)) (sample_file (by simp) (by decide +kernel)) (sample_data (by simp)) (by simp)

/-- Mesh 4 requested from both files. -/
example : (∃ m, readMeshtallyText (fun _ => some (1 : ℚ)) (fun _ => some (some 1)) (some 4) (sampleText [exSec, other]) = .ok (.one m)) ∧
    ∃ ms, readMeshtallyText (fun _ => some (1 : ℚ)) (fun _ => some (some 1)) (some 4) (sampleText [other, exSec]) = .ok (.all ms) ∧
      ms.length = 2 :=
  C273_last_violated _ _ [] [] exSec other _ _ (sample_file (by simp) (by decide +kernel)) (sample_file (by simp) (by decide +kernel))
    (by decide) (sample_data (by simp)) (by decide)

/-- The second of two meshes, alone, taken out and replaced; an energy mesh behind another one. -/
example : ∃ (ms : List (Mesh ℚ (Frame ℚ))) (m : Mesh ℚ (Frame ℚ)),
    readMeshtallyText (fun _ => some 1) (fun _ => some (some 1)) none (sampleText [exSec, other]) = .ok (.all ms) ∧
    readMeshtallyText (fun _ => some 1) (fun _ => some (some 1)) none (sampleText [other]) = .ok (.all [m]) ∧ ms[1]? = some m :=
  C302_alone_partial _ _ [] [] rfl _ _ (sample_file (by simp) (by decide +kernel)) (sample_file (by simp) (by decide +kernel))
    (sample_data (by simp)) (by intro s hs; simp at hs; subst hs; decide)

example : ∃ (a : List (Mesh ℚ (Frame ℚ))) (m : Mesh ℚ (Frame ℚ)) (b : List (Mesh ℚ (Frame ℚ))),
    readMeshtallyText (fun _ => some 1) (fun _ => some (some 1)) none (sampleText [exSec, other]) = .ok (.all (a ++ m :: b)) ∧
    readMeshtallyText (fun _ => some 1) (fun _ => some (some 1)) none (sampleText [exSec]) = .ok (.all (a ++ b)) ∧ a.length = 1 :=
  C302_removed_partial _ _ [] [] [exSec] [] other (by simp) _ _ (sample_file (by simp) (by decide +kernel))
    (sample_file (by simp) (by decide +kernel)) (sample_data (by simp)) (by intro s hs; simp at hs; subst hs; decide)

example : ∃ (a : List (Mesh ℚ (Frame ℚ))) (m m' : Mesh ℚ (Frame ℚ)) (b : List (Mesh ℚ (Frame ℚ))),
    readMeshtallyText (fun _ => some 1) (fun _ => some (some 1)) none (sampleText [exSec, other]) = .ok (.all (a ++ m :: b)) ∧
    readMeshtallyText (fun _ => some 1) (fun _ => some (some 1)) none (sampleText [energy, other]) = .ok (.all (a ++ m' :: b)) ∧ a.length = 0 :=
  C302_replaced_partial _ _ [] [] [] [other] exSec energy _ _ (sample_file (by simp) (by decide +kernel))
    (sample_file (by simp) (by decide +kernel)) (sample_data (by simp)) (by intro s hs; simp at hs; subst hs; decide) (by simp)

example : (∃ m : Mesh ℚ (Frame ℚ), readMeshtallyText (fun _ => some 1) (fun _ => some (some 1)) none (sampleText [energy]) = .ok (.all [m])) ∧
    readMeshtallyText (fun _ => some (1 : ℚ)) (fun _ => some (some 1)) none (sampleText [exSec, energy]) = .error .ValueError :=
  C302_energy_violated _ _ [] [] energy exSec rfl _ _ (sample_file (by simp) (by decide +kernel)) (sample_file (by simp) (by decide +kernel))
    energy_data

/-- A line in front of the meshes. -/
example : readMeshtallyText (fun _ => some (1 : ℚ)) (fun _ => some (some 1)) none (p!"mcnp   version 6\n" ++ sampleText [exSec, energy]) =
    readMeshtallyText (fun _ => some 1) (fun _ => some (some 1)) none (sampleText [exSec, energy]) :=
  C297_mesh _ _ [p!"mcnp   version 6\n"] [] (secs := [exSec, energy]) (by simp) _ _
    ⟨by decide +kernel, by intro l hl; simp only [List.mem_singleton] at hl; subst hl; exact ⟨by decide +kernel, by decide +kernel,
        by intro k hk; cases k <;> first | exact absurd rfl hk | decide +kernel⟩,
      (sample_file (by simp) (by decide +kernel) : FileOf _ [] [exSec, energy] _).secs⟩
    (sample_file (by simp) (by decide +kernel)) (sample_data (by simp))

end Props
