/- Property C298: results do not depend on the order in which Python lists a set. -/
import Verif.Props.McnpOutput3
import Verif.Props.McnpOutput7
import Verif.Props.R2sRun
import Mathlib.Data.List.Perm.Basic

set_option linter.unusedSectionVars false

namespace Props
open Py McnpOutput R2sCell
variable {F : Type} [LinearOrder F]

/-- Spec: the same tally but for the order in which its surfaces are listed, and this only if it counts surface crossings (type 1). -/
def SameTally (t t' : Tally F) : Prop :=
  t' = { t with surfaces := t'.surfaces } ∧ t.surfaces.Perm t'.surfaces ∧ (t.tallyType ≠ '1' → t' = t)

private theorem same_refl (t : Tally F) : SameTally t t := ⟨rfl, .refl _, fun _ => rfl⟩

private theorem surface_type {flt : Str → Option F} {m : F} {enum : List Str → List Str} {t t1 : Tally F} {lines : List Str} (ht : t.tallyType = '1')
    (h : readTypeSurface flt m enum t lines = .ok t1) : t1.surfaces = enum (getType1SurfaceNumbers lines).dedup := by
  have := C138_surface_order_violated flt m enum enum t lines ht (fun _ => rfl)
  rw [h] at this
  simp only [Except.map, Except.ok.injEq] at this
  rw [this]

private theorem by_type {flt : Str → Option F} {m : F} {enum enum' : List Str → List Str} (he : ∀ l, (enum l).Perm l) (he' : ∀ l, (enum' l).Perm l)
    {t t1 : Tally F} {lines : List Str} (h : readByType flt m enum t lines = .ok t1) : ∃ t2, readByType flt m enum' t lines = .ok t2 ∧ SameTally t1 t2 := by
  unfold readByType at h ⊢
  by_cases h4 : t.tallyType = '4' ∨ t.tallyType = '6'
  · rw [if_pos h4] at h ⊢; exact ⟨t1, h, same_refl _⟩
  rw [if_neg h4] at h ⊢
  by_cases h5 : t.tallyType = '5'
  · rw [if_pos h5] at h ⊢; exact ⟨t1, h, same_refl _⟩
  rw [if_neg h5] at h ⊢
  by_cases h1 : t.tallyType = '1' ∨ t.tallyType = '2'
  · rw [if_pos h1] at h ⊢
    by_cases h0 : t.tallyType = '1'
    · have e := C138_surface_order_violated flt m enum enum' t lines h0 (fun l => ((he l).trans (he' l).symm).length_eq)
      rw [h] at e
      refine ⟨_, e, rfl, ?_, fun hne => absurd ?_ hne⟩
      · rw [surface_type h0 h]
        exact (he _).trans (he' _).symm
      · exact (byType_type (enum := enum) (by unfold readByType; rw [if_neg h4, if_neg h5, if_pos h1]; exact h)).trans h0
    · refine ⟨t1, ?_, same_refl _⟩
      rw [← h]
      unfold readTypeSurface
      have h2 := h1.resolve_left h0
      rw [if_pos h2, if_pos h2]
      cases getType2SurfaceAreas lines with
      | error e => rfl
      | ok a =>
        cases getType2SurfaceNumbers lines with
        | error e => rfl
        | ok s =>
          simp only [ex_ok_bind, ex_pure, if_neg h0]
  rw [if_neg h1] at h ⊢
  exact ⟨t1, h, same_refl _⟩

/-- C298: a tally is read in the same way for every order; only the list of the surfaces of a tally of type 1 follows it. -/
theorem C298_tally_partial {flt : Str → Option F} {m : F} {enum enum' : List Str → List Str} (he : ∀ l, (enum l).Perm l) (he' : ∀ l, (enum' l).Perm l)
    {lines : List Str} {n : Str} {t : Tally F} (h : readTally flt m enum lines n = .ok t) :
    ∃ t', readTally flt m enum' lines n = .ok t' ∧ SameTally t t' := by
  unfold readTally readTallyIn at h ⊢
  simp only [ex_bind_ok] at h ⊢
  obtain ⟨r, hr, c0, h0, c, hc, l, hl, ty, hty, n, hn, pl, hpl, hl2, hhl, e, he1, h⟩ := h
  obtain ⟨t', h1, h2⟩ := by_type he he' h
  exact ⟨t', ⟨r, hr, c0, h0, c, hc, l, hl, ty, hty, n, hn, pl, hpl, hl2, hhl, e, he1, h1⟩, h2⟩

/-- Spec: the same output but for the order of the tallies and of the surfaces of tallies of type 1. -/
def SameOutput (o o' : Output F) : Prop :=
  o' = { o with tallyData := o'.tallyData } ∧ ∃ l, o.tallyData.Perm l ∧ List.Forall₂ SameTally l o'.tallyData

private theorem tallies_same {f g : Str → Except Err (Tally F)} (hfg : ∀ n t, f n = .ok t → ∃ t', g n = .ok t' ∧ SameTally t t') {ns : List Str}
    {ts : List (Tally F)} (h : List.Forall₂ (fun n t => f n = .ok t) ns ts) : ∃ ts', List.Forall₂ (fun n t => g n = .ok t) ns ts' ∧ List.Forall₂ SameTally ts ts' := by
  induction h with
  | nil => exact ⟨[], .nil, .nil⟩
  | cons h _ ih =>
    obtain ⟨ts', h1, h2⟩ := ih
    obtain ⟨t', h3, h4⟩ := hfg _ _ h
    exact ⟨t' :: ts', .cons h3 h1, .cons h4 h2⟩

/-- C298: an output is read in the same way for every order in which Python lists a set, but for the order of the tallies and of the surfaces of
    tallies of type 1. -/
theorem C298_output_partial {flt : Str → Option F} {m : F} {enum enum' : List Str → List Str} (he : ∀ l, (enum l).Perm l) (he' : ∀ l, (enum' l).Perm l)
    {path : Str} {lines : List Str} {o : Output F} (h : readOutputLines flt m enum path lines = .ok o) :
    ∃ o', readOutputLines flt m enum' path lines = .ok o' ∧ SameOutput o o' := by
  unfold readOutputLines at h ⊢
  simp only [ex_bind_ok] at h ⊢
  obtain ⟨dt, h1, t60, h2, t101, h3, tls, h4, ts, h5, h6⟩ := h
  rw [mapM_except_ok_iff] at h5
  obtain ⟨w, hw, hwp⟩ := List.perm_comp_forall₂ ((he' tls).trans (he tls).symm) h5
  obtain ⟨ts', h7, h8⟩ := tallies_same (g := readTally flt m enum' lines) (fun n t => C298_tally_partial he he') hw
  cases h6
  exact ⟨_, ⟨dt, h1, t60, h2, t101, h3, tls, h4, ts', mapM_except_ok_iff.2 h7, rfl⟩, rfl, w, hwp.symm, h8⟩

private theorem wanted_fold (p : Str) (tl : Option (List Int)) (l : List (Tally F)) (acc : List Str × List (Tally F)) :
    l.foldl (fun (acc : List Str × List (Tally F)) t => if wanted p tl t then (acc.1 ++ t.cells, acc.2 ++ [t]) else acc) acc =
      (acc.1 ++ (l.filter (wanted p tl)).flatMap (·.cells), acc.2 ++ l.filter (wanted p tl)) := by
  induction l generalizing acc with
  | nil => simp
  | cons t l ih =>
    rw [List.foldl_cons, ih]
    by_cases h : wanted p tl t = true
    · rw [if_pos h, List.filter_cons_of_pos h]; simp
    · rw [if_neg h, List.filter_cons_of_neg h]

private theorem wanted_type {p : Str} {tl : Option (List Int)} {t : Tally F} (h : wanted p tl t = true) : t.tallyType = '4' := by
  unfold wanted at h
  simp only [Bool.and_eq_true, decide_eq_true_eq] at h
  exact h.1.1

private theorem wanted_same (p : Str) (tl : Option (List Int)) {l l' : List (Tally F)} (h : List.Forall₂ SameTally l l') :
    l'.filter (wanted p tl) = l.filter (wanted p tl) := by
  induction h with
  | nil => rfl
  | @cons t t' l l' h _ ih =>
    by_cases ht : t.tallyType = '1'
    · have ht' : t'.tallyType = '1' := by rw [h.1]; exact ht
      rw [List.filter_cons_of_neg (fun hw => ?_), List.filter_cons_of_neg (fun hw => ?_), ih]
      · have := wanted_type hw; rw [ht] at this; exact absurd this (by decide)
      · have := wanted_type hw; rw [ht'] at this; exact absurd this (by decide)
    · rw [h.2.2 ht, List.filter_cons, List.filter_cons, ih]

/-- C298: the cells of the tallies for an activation are the same for every order, and so are these tallies. -/
theorem C298_cells {o o' : Output F} (h : SameOutput o o') (p : Str) (tl : Option (List Int)) {ns : List Int} {ts : List (Tally F)}
    (hc : getCellsMcnp o p tl = .ok (ns, ts)) : ∃ ns' ts', getCellsMcnp o' p tl = .ok (ns', ts') ∧ ns.Perm ns' ∧ ts.Perm ts' := by
  obtain ⟨-, l, hp, hl⟩ := h
  have hf : (o.tallyData.filter (wanted p tl)).Perm (o'.tallyData.filter (wanted p tl)) := by
    rw [wanted_same p tl hl]
    exact hp.filter _
  unfold getCellsMcnp at hc ⊢
  simp only [wanted_fold, List.nil_append, ex_bind_ok, ex_pure, Except.ok.injEq, Prod.mk.injEq] at hc ⊢
  obtain ⟨ns1, h1, rfl, rfl⟩ := hc
  rw [mapM_except_ok_iff] at h1
  obtain ⟨w, hw, hwp⟩ := List.perm_comp_forall₂ (hf.flatMap_right (·.cells)).symm h1
  exact ⟨w, _, ⟨w, mapM_except_ok_iff.2 hw, rfl, rfl⟩, hwp.symm, hf⟩

/-- The paths that the set-up of a cell writes. -/
def cellPaths (n : Int) : List Str :=
  [cellFolder n, cellFolder n ++ p!"/collapse.i", cellFolder n ++ p!"/array.i", cellFolder n ++ p!"/" ++ cellFolder n ++ p!".i", cellFolder n ++ p!"/FILES",
    cellFolder n ++ p!"/fluxes"]

private theorem put_else (fs : FS) {p q : Str} (n : Node) (h : q ≠ p) : (fs.put p n).node q = fs.node q := if_neg h

private theorem setup_rest {n : Int} {inp : Inputs F} {fs fs' : FS} (h : fispactSetup (cellFolder n) inp fs = (.ok (), fs')) :
    fs'.perm = fs.perm ∧ ∀ q, q ∉ cellPaths n → fs'.node q = fs.node q := by
  refine ⟨by have := (r2s_setup_touches (cellFolder n) inp fs).1; rw [h] at this; exact this, fun q hq => ?_⟩
  obtain ⟨fs1, src, c, hfs1, -, -, -, -, -, rfl, -⟩ := r2s_setup_run h
  simp only [cellPaths, List.mem_cons, List.not_mem_nil, or_false, not_or] at hq
  obtain ⟨q1, q2, q3, q4, q5, q6⟩ := hq
  rw [put_else _ _ q6, put_else _ _ q5, put_else _ _ q4, put_else _ _ q3, put_else _ _ q2]
  refine hfs1 q ?_
  rintro (h | ⟨t, ht⟩)
  · exact q1 h
  · exact r2s_folder_noslash n (by rw [← ht]; simp)

private theorem cells_rest {inp : Inputs F} {ns : List Int} {fs fs' : FS} (h : setupCells inp ns fs = (.ok (), fs')) :
    fs'.perm = fs.perm ∧ ∀ q, (∀ n ∈ ns, q ∉ cellPaths n) → fs'.node q = fs.node q := by
  induction ns generalizing fs with
  | nil => cases h; exact ⟨rfl, fun _ _ => rfl⟩
  | cons n ns ih =>
    obtain ⟨fs1, h1, h2⟩ := r2s_setup_cons h
    obtain ⟨a, b⟩ := setup_rest h1
    obtain ⟨a', b'⟩ := ih h2
    exact ⟨a'.trans a, fun q hq => (b' q (fun m hm => hq m (by simp [hm]))).trans (b q (hq n (by simp)))⟩

private theorem ready_same {c : Str} {n : Int} {fs fs' : FS} (h : CellReady c n fs) (h' : CellReady c n fs') {q : Str} (hq : q ∈ cellPaths n) :
    fs.node q = fs'.node q := by
  simp only [cellPaths, List.mem_cons, List.not_mem_nil, or_false] at hq
  rcases hq with rfl | rfl | rfl | rfl | rfl | rfl
  · rw [h.dir, h'.dir]
  · rw [h.collapse, h'.collapse]
  · rw [h.array, h'.array]
  · rw [h.input, h'.input]
  · rw [h.files, h'.files]
  · rw [h.fluxes, h'.fluxes]

/-- C298: the folders of the cells are the same in whichever order the cells are set up. -/
theorem C298_setup {inp : Inputs F} {src c : Str} (hs : inp.filesFile = .str src) {ns ns' : List Int} (hp : ns.Perm ns') {fs fs1 fs2 : FS}
    (h1 : setupCells inp ns fs = (.ok (), fs1)) (h2 : setupCells inp ns' fs = (.ok (), fs2)) (hout : ∀ n ∈ ns, ¬ FolderPart (cellFolder n) src)
    (hc : fs.node src = some (.file c)) : fs1 = fs2 := by
  obtain ⟨a1, -⟩ := r2s_cells_ready hs ns h1 hout hc
  obtain ⟨a2, -⟩ := r2s_cells_ready hs ns' h2 (fun n hn => hout n (hp.mem_iff.2 hn)) hc
  obtain ⟨p1, b1⟩ := cells_rest h1
  obtain ⟨p2, b2⟩ := cells_rest h2
  have hn : fs1.node = fs2.node := by
    funext q
    by_cases hq : ∃ n ∈ ns, q ∈ cellPaths n
    · obtain ⟨n, hn, hq⟩ := hq
      exact ready_same (a1 n hn) (a2 n (hp.mem_iff.1 hn)) hq
    · push Not at hq
      rw [b1 q hq, b2 q (fun n hn => hq n (hp.mem_iff.2 hn))]
  cases fs1; cases fs2
  simp only at hn p1 p2
  rw [hn, p1, p2]

private theorem lift_fs {α : Type} {x : Except Err α} {a : α} {fs fs' : FS} (h : PyM.lift x fs = (.ok a, fs')) : x = .ok a ∧ fs' = fs := by
  rw [PyM.lift_run] at h
  cases h
  exact ⟨rfl, rfl⟩

/-- C298: the cells of the tallies that are activated are the same for every order in which sets are listed. -/
theorem C298_tallied {flt : Str → Option F} {m : F} {enum enum' : List Str → List Str} (he : ∀ l, (enum l).Perm l) (he' : ∀ l, (enum' l).Perm l)
    {inp : Inputs F} {fs fs1 : FS} {ns : List Int} {ts : List (Tally F)} (h : readDataFromMcnpOutput flt m enum inp fs = (.ok (ns, ts), fs1)) :
    ∃ ns' ts', readDataFromMcnpOutput flt m enum' inp fs = (.ok (ns', ts'), fs1) ∧ ns.Perm ns' ∧ ts.Perm ts' := by
  unfold readDataFromMcnpOutput at h ⊢
  rw [pym_bind_ok] at h
  obtain ⟨v, f1, h1, h⟩ := h
  rw [PyM.bind_ok h1]
  rw [pym_bind_ok] at h
  obtain ⟨path, f2, h2, h⟩ := h
  rw [PyM.bind_ok h2]
  rw [PyM.bind_ok (PyM.getFS_run f2)] at h ⊢
  by_cases hx : pathExists f2 path = true
  · rw [if_pos hx, pym_bind_ok] at h
    obtain ⟨o, f3, h3, h⟩ := h
    rw [if_pos hx]
    unfold readOutputFile at h3
    rw [pym_bind_ok] at h3
    obtain ⟨lines, f4, h4, h3⟩ := h3
    obtain ⟨h3', e3⟩ := lift_fs h3
    subst e3
    obtain ⟨o', h5, h6⟩ := C298_output_partial he he' h3'
    have h7 : readOutputFile flt m enum' path f2 = (.ok o', f3) := by
      unfold readOutputFile
      rw [PyM.bind_ok h4, PyM.lift_run, h5]
    rw [PyM.bind_ok h7]
    have hf : o'.fatal = o.fatal := by rw [h6.1]
    rw [hf]
    by_cases hfat : o.fatal = true
    · rw [if_pos hfat] at h; cases h
    · rw [if_neg hfat] at h ⊢
      obtain ⟨h', e⟩ := lift_fs h
      subst e
      obtain ⟨ns', ts', h8, h9, h10⟩ := C298_cells h6 _ _ h'
      exact ⟨ns', ts', by rw [PyM.lift_run, h8], h9, h10⟩
  · rw [if_neg hx] at h; cases h

/-- C298: two runs of the activation with the same files but other orders of the sets leave the same files, if both return and the FILES file lies
    outside the folders of the cells. -/
theorem C298_activation {flt : Str → Option F} {m : F} {enum enum' : List Str → List Str} (he : ∀ l, (enum l).Perm l) (he' : ∀ l, (enum' l).Perm l)
    {json : Str → Except Err (Json F)} {enumI enumI' : List Int → List Int} {config : Str} {fs fs1 fs2 : FS}
    (h1 : main flt m enum json enumI config fs = (.ok (), fs1)) (h2 : main flt m enum' json enumI' config fs = (.ok (), fs2))
    (hout : ∀ inp ns ts src, readConfig json config fs = (.ok inp, fs) → readDataFromMcnpOutput flt m enum inp fs = (.ok (ns, ts), fs) →
      inp.filesFile = .str src → ∀ n ∈ ns, ¬ FolderPart (cellFolder n) src) : fs1 = fs2 := by
  obtain ⟨inp, ns, ts, r, a1, a2, a3, a4⟩ := r2s_main_parts flt m enum h1
  obtain ⟨inp', ns', ts', r', b1, b2, b3, b4⟩ := r2s_main_parts flt m enum' h2
  rw [a1] at b1
  cases b1
  have hp : ns.Perm ns' := by
    obtain ⟨ns2, ts2, h3, h4, -⟩ := C298_tallied he he' a2
    rw [b2] at h3
    cases h3
    exact h4
  obtain ⟨inp2, ns2, ts2, src, c1, c2, -, hs, hc⟩ := C239_complete flt m enum h1
  rw [a1] at c1
  cases c1
  rw [a2] at c2
  cases c2
  obtain ⟨c, hc, -, -⟩ := hc (hout _ _ _ _ a1 a2 hs)
  exact C298_setup hs hp a4 b4 (hout _ _ _ _ a1 a2 hs) hc

private theorem numbers_same {l l' : List (Tally F)} (h : List.Forall₂ SameTally l l') : l'.map (·.number) = l.map (·.number) := by
  induction h with
  | nil => rfl
  | cons h _ ih =>
    rw [List.map_cons, List.map_cons, ih, h.1]

/-- C298, violated for the order of the tallies: if the set is listed the other way round, so are the tallies. -/
theorem C298_order_violated {flt : Str → Option F} {m : F} {enum : List Str → List Str} (he : ∀ l, (enum l).Perm l) {path : Str} {lines : List Str}
    {o : Output F} (h : readOutputLines flt m enum path lines = .ok o) :
    ∃ o', readOutputLines flt m (fun l => (enum l).reverse) path lines = .ok o' ∧ o'.tallyData.map (·.number) = (o.tallyData.map (·.number)).reverse := by
  unfold readOutputLines at h ⊢
  simp only [ex_bind_ok] at h ⊢
  obtain ⟨dt, h1, t60, h2, t101, h3, tls, h4, ts, h5, h6⟩ := h
  rw [mapM_except_ok_iff] at h5
  obtain ⟨ts', h7, h8⟩ := tallies_same (g := readTally flt m (fun l => (enum l).reverse) lines)
    (fun n t => C298_tally_partial he (fun l => (List.reverse_perm _).trans (he l))) (List.forall₂_reverse_iff.2 h5)
  cases h6
  refine ⟨_, ⟨dt, h1, t60, h2, t101, h3, tls, h4, ts', mapM_except_ok_iff.2 h7, rfl⟩, ?_⟩
  rw [numbers_same h8, List.map_reverse]

private def exTwo : List Str := [p!"1mcnp     version 6     ld=02/20/18                     10/19/19 10:00:00",
  p!"1tally        4        nps =    1000", p!"           tally type 7 x", p!"           particle(s): neutrons",
  p!"1tally       14        nps =    1000", p!"           tally type 7 x", p!"           particle(s): neutrons", p!"1tally fluctuation charts"]

-- the first tally of this file is number 4 or number 14, as the set happens to be listed
example : (readOutputLines (fun _ => some (0 : Nat)) 0 id [] exTwo).map (fun o => o.tallyData.map (·.number)) = .ok [4, 14] ∧
    (readOutputLines (fun _ => some (0 : Nat)) 0 List.reverse [] exTwo).map (fun o => o.tallyData.map (·.number)) = .ok [14, 4] := by
  decide +kernel

-- tallies of type 1 with their surfaces in two orders
example : SameTally (⟨1, '1', [], .inr 1, .items [], .items [], none, none, none, none, [], [], [p!"2", p!"10"], [], none, none, none, none, none, []⟩ : Tally Nat)
    ⟨1, '1', [], .inr 1, .items [], .items [], none, none, none, none, [], [], [p!"10", p!"2"], [], none, none, none, none, none, []⟩ :=
  ⟨rfl, List.Perm.swap _ _ _, fun h => absurd rfl h⟩
example (l : List Str) : (id l).Perm l ∧ l.reverse.Perm l := ⟨.refl _, List.reverse_perm _⟩

end Props
