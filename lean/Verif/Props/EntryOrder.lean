/-
C279: the order of the entries of an xsdir file and of a list of emission lines.
-/
import Verif.Props.Readers
import Verif.Props.XsdirThermal

set_option linter.unusedSectionVars false

namespace Props
open Py NeutUtilities

/-- No two of the lines have an entry with the same name. -/
def NamedOnce {V : Type} (entry : Str → Str → V → Prop) (ls : List Str) : Prop := ls.Pairwise (fun l l' => ∀ k v v', entry l k v → ¬ entry l' k v')

private theorem last_iff {V : Type} {entry : Str → Str → V → Prop} {ls : List Str} (h : NamedOnce entry ls) (P : Str → V → Prop) (k : Str) :
    (∃ a l b, ls = a ++ l :: b ∧ (∃ v, entry l k v ∧ P l v) ∧ ∀ l' ∈ b, ∀ v', ¬ entry l' k v') ↔ ∃ l ∈ ls, ∃ v, entry l k v ∧ P l v := by
  constructor
  · rintro ⟨a, l, b, rfl, h1, _⟩
    exact ⟨l, by simp, h1⟩
  · rintro ⟨l, hl, v, hv, hp⟩
    obtain ⟨a, b, rfl⟩ := List.append_of_mem hl
    refine ⟨a, l, b, rfl, ⟨v, hv, hp⟩, fun l' hl' v' => ?_⟩
    exact (List.pairwise_cons.1 (List.pairwise_append.1 h).2.1).1 l' hl' k v v' hv

private theorem once_perm {V : Type} {entry : Str → Str → V → Prop} {ls ls' : List Str} (hp : ls.Perm ls') (h : NamedOnce entry ls) : NamedOnce entry ls' := by
  refine hp.pairwise h ?_
  intro l l' h k v v' h1 h2
  exact h k v' v h2 h1

section xsdir
open Xsdir
variable {F : Type}

private theorem opt_ext {α : Type} {x y : Option α} (h : ∀ v, x = some v ↔ y = some v) : x = y := Option.ext h

/-- C279 (part that holds): cross section tables named once are found in whatever order they are listed. -/
theorem C279_directory_partial (flt : Str → Option F) (fs fs' : FS) (path path' : Str) (xs xs' : XSDir F) (pre pre' sec sec' : List Str) (dl dl' : Str)
    (hok : (readXsdir flt path fs).1 = .ok xs) (hok' : (readXsdir flt path' fs').1 = .ok xs')
    (hl : (getLines path fs).1 = .ok (pre ++ dl :: sec)) (hl' : (getLines path' fs').1 = .ok (pre' ++ dl' :: sec'))
    (hdl : p!"directory" <+: strip dl) (hdl' : p!"directory" <+: strip dl') (hpre : ∀ l ∈ pre, ¬ p!"directory" <+: strip l)
    (hpre' : ∀ l ∈ pre', ¬ p!"directory" <+: strip l) (hp : sec.Perm sec') (h1 : NamedOnce DirEntry sec) (k : Str) :
    xs.directory.get k = xs'.directory.get k := by
  have e1 := (C24_directory flt fs path xs pre sec dl hok hl hdl hpre).1 k
  have e2 := (C24_directory flt fs' path' xs' pre' sec' dl' hok' hl' hdl' hpre').1 k
  refine opt_ext fun v => ?_
  have f1 := last_iff h1 (fun _ w => w = v) k
  have f2 := last_iff (once_perm hp h1) (fun _ w => w = v) k
  simp only [exists_eq_right] at f1 f2
  rw [e1, e2, f1, f2]
  simp only [hp.mem_iff]

/-- C279 (part that holds): thermal tables named once. -/
theorem C279_thermal_partial (flt : Str → Option F) (fs fs' : FS) (path path' : Str) (xs xs' : XSDir F) (pre pre' sec sec' : List Str) (dl dl' : Str)
    (hok : (readXsdir flt path fs).1 = .ok xs) (hok' : (readXsdir flt path' fs').1 = .ok xs')
    (hl : (getLines path fs).1 = .ok (pre ++ dl :: sec)) (hl' : (getLines path' fs').1 = .ok (pre' ++ dl' :: sec'))
    (hdl : ThermalHead dl) (hdl' : ThermalHead dl') (hpre : ∀ l ∈ pre, ¬ ThermalHead l)
    (hpre' : ∀ l ∈ pre', ¬ ThermalHead l) (hp : sec.Perm sec') (h1 : NamedOnce ThermalEntry sec) (k : Str) :
    xs.thermal.get k = xs'.thermal.get k := by
  have e1 := (C137_thermal flt fs path xs pre sec dl hok hl hpre hdl).1 k
  have e2 := (C137_thermal flt fs' path' xs' pre' sec' dl' hok' hl' hpre' hdl').1 k
  refine opt_ext fun v => ?_
  have f1 := last_iff h1 (fun _ w => w = v) k
  have f2 := last_iff (once_perm hp h1) (fun _ w => w = v) k
  simp only [exists_eq_right] at f1 f2
  rw [e1, e2, f1, f2]
  simp only [hp.mem_iff]

/-- C279 (part that holds): atomic weight ratios of nuclides named once; the file is refused in either order or in none. -/
theorem C279_weights_partial (flt : Str → Option F) (pre pre' sec sec' tail tail' : List Str) (al al' : Str)
    (hal : p!"atomic" <+: strip al) (hal' : p!"atomic" <+: strip al') (hpre : ∀ l ∈ pre, ¬ p!"atomic" <+: strip l)
    (hpre' : ∀ l ∈ pre', ¬ p!"atomic" <+: strip l) (hsec : ∀ l ∈ sec, ¬ p!"directory" <+: strip l)
    (htail : tail = [] ∨ ∃ dl rest, tail = dl :: rest ∧ p!"directory" <+: strip dl)
    (htail' : tail' = [] ∨ ∃ dl rest, tail' = dl :: rest ∧ p!"directory" <+: strip dl) (hp : sec.Perm sec') (h1 : NamedOnce AwrEntry sec) :
    (processAwr flt (pre ++ al :: (sec ++ tail)) = .error .ValueError ∧ processAwr flt (pre' ++ al' :: (sec' ++ tail')) = .error .ValueError) ∨
    ∃ d d', processAwr flt (pre ++ al :: (sec ++ tail)) = .ok d ∧ processAwr flt (pre' ++ al' :: (sec' ++ tail')) = .ok d' ∧ ∀ k, d.get k = d'.get k := by
  have a1 := C25_awr flt pre sec tail al hal hpre hsec htail
  have a2 := C25_awr flt pre' sec' tail' al' hal' hpre' (fun l hl => hsec l (hp.mem_iff.2 hl)) htail'
  by_cases h : ∃ l ∈ sec, ∃ k v, AwrEntry l k v ∧ flt v = none
  · left
    refine ⟨a1.1 h, a2.1 ?_⟩
    simpa only [hp.mem_iff] using h
  · right
    obtain ⟨d, hd, _, _, e1⟩ := a1.2 h
    obtain ⟨d', hd', _, _, e2⟩ := a2.2 (by simpa only [hp.mem_iff] using h)
    refine ⟨d, d', hd, hd', fun k => opt_ext fun x => ?_⟩
    have f1 := last_iff h1 (fun _ w => flt w = some x) k
    have f2 := last_iff (once_perm hp h1) (fun _ w => flt w = some x) k
    have g : ∀ ls : List Str, (∃ a l b v, ls = a ++ l :: b ∧ AwrEntry l k v ∧ flt v = some x ∧ ∀ l' ∈ b, ∀ v', ¬ AwrEntry l' k v') ↔
        ∃ a l b, ls = a ++ l :: b ∧ (∃ v, AwrEntry l k v ∧ flt v = some x) ∧ ∀ l' ∈ b, ∀ v', ¬ AwrEntry l' k v' := by
      intro ls
      constructor
      · rintro ⟨a, l, b, v, h1, h2, h3, h4⟩; exact ⟨a, l, b, h1, ⟨v, h2, h3⟩, h4⟩
      · rintro ⟨a, l, b, h1, ⟨v, h2, h3⟩, h4⟩; exact ⟨a, l, b, v, h1, h2, h3, h4⟩
    rw [e1, e2, g, g, f1, f2]
    simp only [hp.mem_iff]

/-- C279 fails: of a table that is named twice the last entry counts. -/
theorem C279_twice_violated (l l' k : Str) (v v' : List Str) (h : DirEntry l k v) (h' : DirEntry l' k v') (hv : v ≠ v') (dl : Str) (hdl : p!"directory" <+: strip dl) :
    (processDirectory [dl, l, l']).get k ≠ (processDirectory [dl, l', l]).get k := by
  have run : ∀ l l' v v', DirEntry l k v → DirEntry l' k v' → (processDirectory [dl, l, l']).get k = some v' := by
    intro l l' v v' ⟨a1, a2, a3⟩ ⟨b1, b2, b3⟩
    rw [isWords_iff] at a3 b3
    rw [← startsWith_iff] at a1 b1
    cases v with
    | nil => exact absurd rfl a2
    | cons x xs =>
      cases v' with
      | nil => exact absurd rfl b2
      | cons y ys =>
        simp only [processDirectory, dirLoop, startsWith_iff.2 hdl, if_true, a1, b1, Bool.false_eq_true, if_false, a3, b3, Dict.get_set_self]
  rw [run l l' v v' h h', run l' l v' v h' h]
  intro e
  exact hv (Option.some.inj e).symm

private theorem e1 : DirEntry p!"1001.80c 1 a" p!"1001.80c" [p!"1", p!"a"] := ⟨by decide, by decide, by rw [isWords_iff]; decide⟩
private theorem e2 : DirEntry p!" 1001.80c 2 b" p!"1001.80c" [p!"2", p!"b"] := ⟨by decide, by decide, by rw [isWords_iff]; decide⟩

example : (processDirectory [p!"directory", p!"1001.80c 1 a", p!" 1001.80c 2 b"]).get p!"1001.80c" ≠
    (processDirectory [p!"directory", p!" 1001.80c 2 b", p!"1001.80c 1 a"]).get p!"1001.80c" :=
  C279_twice_violated _ _ _ _ _ e1 e2 (by decide) _ (by decide)

example : NamedOnce DirEntry [p!"1001.80c 1 a", p!"8016.80c 2 b"] := by
  refine .cons ?_ (.cons (by simp) .nil)
  intro l hl k v v' h h'
  rw [List.mem_singleton] at hl
  subst hl
  have a := isWords_iff.1 h.2.2
  have b := isWords_iff.1 h'.2.2
  have a' : splitWs p!"1001.80c 1 a" = [p!"1001.80c", p!"1", p!"a"] := by decide
  have b' : splitWs p!"8016.80c 2 b" = [p!"8016.80c", p!"2", p!"b"] := by decide
  rw [a'] at a; rw [b'] at b
  simp only [List.cons.injEq] at a b
  rw [← a.1] at b
  exact absurd b.1 (by decide)

example : processDirectory [p!"directory", p!"1001.80c 1 a", p!"8016.80c 2 b"] = [(p!"1001.80c", [p!"1", p!"a"]), (p!"8016.80c", [p!"2", p!"b"])] ∧
    processDirectory [p!"directory", p!"8016.80c 2 b", p!"1001.80c 1 a"] = [(p!"8016.80c", [p!"2", p!"b"]), (p!"1001.80c", [p!"1", p!"a"])] := by
  constructor <;> decide

end xsdir

section printlib
open Printlib Spec.Printlib
variable {F : Type}

private theorem rows_carry {flt : Str → Option F} {rows : List Str} {t : List (Row F)} (hh : ∀ l ∈ rows.head?, l[2]? ≠ some ' ') (c c' : Option Str)
    (h : RowsFrom flt c rows t) : RowsFrom flt c' rows t := by
  cases h with
  | nil => exact .nil
  | @cons _ line rest d n e i tbl h1 h2 h3 h4 h5 =>
    have : d ≠ ' ' := by rintro rfl; exact hh line (by simp) h1
    rw [if_pos this] at h2
    exact .cons h1 (by rw [if_pos this]; exact h2) h3 h4 h5

private theorem rows_append {flt : Str → Option F} {a b : List Str} {t u : List (Row F)} {c : Option Str} (h : RowsFrom flt c a t)
    (hb : ∀ c', RowsFrom flt c' b u) : RowsFrom flt c (a ++ b) (t ++ u) := by
  induction h with
  | nil => exact hb _
  | cons h1 h2 h3 h4 _ ih => exact .cons h1 h2 h3 h4 ih

private theorem read_rows {flt : Str → Option F} {fs : FS} {path content : Str} {pre data rest : List Str} {fd rt : Str} {t : List (Row F)}
    (hnode : fs.node path = some (.file content)) (hlines : keepLines (univNL content) = pre ++ fd :: data ++ rt :: rest)
    (hrt : p!"fispact run time" <:+: rt) (hrt' : ∀ l ∈ pre ++ fd :: data, ¬ p!"fispact run time" <:+: l)
    (hfd : p!" FD " <:+: fd) (hfd' : ∀ l ∈ pre, ¬ p!" FD " <:+: l) (h : RowsFrom flt none (data.filter isRow) t) : read flt path fs = (.ok t, fs) := by
  unfold Printlib.read
  rw [hnode]
  simp only
  rw [hlines]
  have := (scan_full (flt := flt) (pre ++ fd :: data) (rt :: rest) (fun l hl => hasSub_false_iff.2 (hrt' l hl))
    (Or.inr ⟨rt, rest, rfl, hasSub_iff.2 hrt⟩)).1 t
  rw [afterFD_split (hasSub_iff.2 hfd) (fun l hl => hasSub_false_iff.2 (hfd' l hl))] at this
  rw [this h]
  rfl

/-- C279 (part that holds): the emission lines of a nuclide are the same wherever it is listed; `gs` are the lines of the nuclides. -/
theorem C279_lines_partial (flt : Str → Option F) (fs fs' : FS) (path path' c c' : Str) (pre pre' rest rest' : List Str) (gs gs' : List (List Str))
    (fd fd' rt rt' : Str) (hf : fs.node path = some (.file c)) (hf' : fs'.node path' = some (.file c'))
    (hl : keepLines (univNL c) = pre ++ fd :: gs.flatten ++ rt :: rest) (hl' : keepLines (univNL c') = pre' ++ fd' :: gs'.flatten ++ rt' :: rest')
    (hrt : p!"fispact run time" <:+: rt) (hrt' : p!"fispact run time" <:+: rt') (hno : ∀ l ∈ pre ++ fd :: gs.flatten, ¬ p!"fispact run time" <:+: l)
    (hno' : ∀ l ∈ pre' ++ [fd'], ¬ p!"fispact run time" <:+: l) (hfd : p!" FD " <:+: fd) (hfd' : p!" FD " <:+: fd') (hpre : ∀ l ∈ pre, ¬ p!" FD " <:+: l)
    (hpre' : ∀ l ∈ pre', ¬ p!" FD " <:+: l) (hp : gs.Perm gs') (hwf : ∀ g ∈ gs, WellFormed flt (g.filter (fun l => decide (DataLine l)))) :
    ∃ t t', read flt path fs = (.ok t, fs) ∧ read flt path' fs' = (.ok t', fs') ∧ t.Perm t' := by
  have hrow : ∀ g : List Str, g.filter (fun l => decide (DataLine l)) = g.filter isRow := by
    intro g
    apply List.filter_congr; intro l _
    rw [Bool.eq_iff_iff, decide_eq_true_eq]
    unfold isRow DataLine
    rw [Bool.and_eq_true, Bool.not_eq_true', Bool.not_eq_true', hasSub_false_iff, hasSub_false_iff]
  have hex : ∀ g, g ∈ gs → ∃ t, ∀ c, RowsFrom flt c (g.filter isRow) t := by
    intro g hg
    have hw := hwf g hg
    rw [hrow] at hw
    obtain ⟨t, ht⟩ := exists_rowsFrom (carry := none) hw.1 (fun _ => hw.2)
    exact ⟨t, fun c => rows_carry hw.2 _ _ ht⟩
  choose! f hfun using hex
  have key : ∀ hs : List (List Str), (∀ g ∈ hs, g ∈ gs) → ∀ c, RowsFrom flt c (hs.flatten.filter isRow) (hs.flatMap f) := by
    intro hs
    induction hs with
    | nil => intro _ c; exact .nil
    | cons g hs ih =>
      intro h c
      rw [List.flatten_cons, List.filter_append, List.flatMap_cons]
      exact rows_append (hfun g (h g (by simp)) c) (ih (fun g hg => h g (by simp [hg])))
  refine ⟨gs.flatMap f, gs'.flatMap f, read_rows hf hl hrt hno hfd hpre (key gs (fun _ h => h) none),
    read_rows hf' hl' hrt' ?_ hfd' hpre' (key gs' (fun g hg => hp.mem_iff.2 hg) none), hp.flatMap_right f⟩
  intro l hl
  simp only [List.mem_append, List.mem_cons, List.mem_flatten] at hl
  rcases hl with h | h | ⟨g, hg, hlg⟩
  · exact hno' l (by simp [h])
  · exact hno' l (by simp [h])
  · exact hno l (by
      simp only [List.mem_append, List.mem_cons, List.mem_flatten]
      exact .inr (.inr ⟨g, hp.mem_iff.2 hg, hlg⟩))

/-- Two nuclides, the second with two lines. -/
private def exA : List Str := [p!"  H  3                   beta                5       " ++ p!"                     7           \n"]
private def exB : List Str := [p!"  Co 60                  beta                1       " ++ p!"                     2           \n",
  p!"                         gamma               6       " ++ p!"                     8           \n"]

private def exFile (gs : List (List Str)) : Str := p!" ( FD )\n" ++ gs.flatten.flatten ++ p!"fispact run time\n"

private def rowsOf (gs : List (List Str)) : Option (List (Str × Nat)) :=
  (read exFltWs p!"f" (exFS (exFile gs))).1.toOption.map (fun t => t.map (fun r => (r.nuclide, r.energy)))

example : rowsOf [exA, exB] = some [(p!"H3", 5), (p!"Co60", 1), (p!"Co60", 6)] ∧ rowsOf [exB, exA] = some [(p!"Co60", 1), (p!"Co60", 6), (p!"H3", 5)] := by
  constructor <;> decide
example : ∀ g ∈ [exA, exB], WellFormed exFltWs (g.filter (fun l => decide (DataLine l))) := by
  unfold WellFormed; decide

end printlib
end Props
