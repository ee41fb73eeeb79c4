/- Helper lemmas for the model of neut_utilities.py. -/
import Verif.Proofs.Lines
import Verif.Model.NeutUtilities
import Mathlib.Tactic.Linarith

namespace NeutUtilities
open Py

theorem writeLines_ok {fs : FS} {path : Str} (lines : List Str) (h : fs.canWrite path = true) :
    writeLines path lines fs = (.ok (), fs.put path (.file (lines.flatMap (fun l => l ++ ['\n'])))) := by
  simp [writeLines, writeText, h]

theorem writeLines_err {fs : FS} {path : Str} (lines : List Str) (h : fs.canWrite path = false) :
    writeLines path lines fs = (.error .OSError, fs) := by
  simp [writeLines, writeText, h]

theorem getLines_file {fs : FS} {path c : Str} (h : fs.node path = some (.file c)) :
    getLines path fs = (.ok (splitlines (univNL c)), fs) := by
  unfold getLines
  rw [PyM.bind_ok (a := univNL c) (fs' := fs) (by simp [readText, h])]
  rfl

theorem getLines_dir {fs : FS} {path : Str} (h : fs.node path = some .dir) :
    getLines path fs = (.error .OSError, fs) := by
  unfold getLines
  exact PyM.bind_err (by simp [readText, h])

theorem getLines_none {fs : FS} {path : Str} (h : fs.node path = none) :
    getLines path fs = (.error .FileNotFoundError, fs) := by
  unfold getLines
  exact PyM.bind_err (by simp [readText, h])

theorem getLines_snd (path : Str) (fs : FS) : (getLines path fs).2 = fs := by
  cases h : fs.node path with
  | none => rw [getLines_none h]
  | some n => cases n with
    | file c => rw [getLines_file h]
    | dir => rw [getLines_dir h]

theorem put_self {fs : FS} {p : Str} {n : Node} : (fs.put p n).node p = some n := by simp [FS.put]

theorem put_other {fs : FS} {p q : Str} {n : Node} (h : q ≠ p) : (fs.put p n).node q = fs.node q := by
  simp [FS.put, h]

theorem univNL_splitlines_flatMap {ls : List Str} (h : ∀ l ∈ ls, ∀ c ∈ l, isLineBreak c = false) :
    splitlines (univNL (ls.flatMap (fun l => l ++ ['\n']))) = ls := by
  rw [univNL_eq_self, splitlines_flatMap h]
  intro hm
  obtain ⟨l, hl, hm⟩ := List.mem_flatMap.1 hm
  rcases List.mem_append.1 hm with hm | hm
  · exact absurd (h l hl _ hm) (by decide)
  · simp at hm

theorem findLineFrom_eq (text : Str) (num i : Nat) (lines : List Str) :
    findLineFrom text num i lines =
      orErr .ValueError ((lines.findIdx? (fun l => l.take num = text)).map (· + i)) := by
  induction lines generalizing i with
  | nil => rfl
  | cons l ls ih =>
    rw [findLineFrom, List.findIdx?_cons]
    by_cases h : l.take num = text
    · simp [h, orErr]
    · simp only [h, if_false, decide_false, ih, Bool.false_eq_true, Option.map_map]
      congr 2
      funext x; simp; omega

theorem findIndFrom_eq (sub : Str) (i : Nat) (lines : List Str) :
    findIndFrom sub i lines =
      orErr .ValueError ((lines.findIdx? (fun l => hasSub sub l)).map (· + i)) := by
  induction lines generalizing i with
  | nil => rfl
  | cons l ls ih =>
    rw [findIndFrom, List.findIdx?_cons]
    by_cases h : hasSub sub l = true
    · simp [h, orErr]
    · simp only [h, ih, Bool.false_eq_true, if_false, Option.map_map]
      congr 2
      funext x; simp; omega

theorem findLine_eq (text : Str) (lines : List Str) (num : Nat) :
    findLine text lines num = orErr .ValueError (lines.findIdx? (fun l => l.take num = text)) := by
  rw [findLine, findLineFrom_eq]; simp

theorem findInd_eq (data : List Str) (sub : Str) :
    findInd data sub = orErr .ValueError (data.findIdx? (fun l => hasSub sub l)) := by
  rw [findInd, findIndFrom_eq]; simp

theorem orErr_ok_iff {α : Type*} {e : Err} {o : Option α} {a : α} : orErr e o = .ok a ↔ o = some a := by
  cases o <;> simp [orErr]

theorem orErr_err_iff {α : Type*} {e e' : Err} {o : Option α} : orErr e o = .error e' ↔ o = none ∧ e' = e := by
  cases o <;> simp [orErr, eq_comm]

theorem findIdx?_isLeast {α : Type*} {p : α → Bool} {l : List α} {i : Nat} :
    l.findIdx? p = some i ↔ Spec.IsLeast (fun j => ∃ x, l[j]? = some x ∧ p x = true) i := by
  rw [List.findIdx?_eq_some_iff_getElem]
  constructor
  · rintro ⟨h, hp, hn⟩
    refine ⟨⟨l[i], by simp [h], hp⟩, ?_⟩
    rintro j hj ⟨x, hx, hpx⟩
    have := hn j hj
    rw [List.getElem?_eq_some_iff] at hx
    obtain ⟨_, hx⟩ := hx
    rw [hx] at this
    exact this hpx
  · rintro ⟨⟨x, hx, hp⟩, hn⟩
    rw [List.getElem?_eq_some_iff] at hx
    obtain ⟨h, hx⟩ := hx
    refine ⟨h, by rw [hx]; exact hp, fun j hj => ?_⟩
    intro hpj
    exact hn j hj ⟨l[j], by simp, hpj⟩

/-- Indices of a filtered `zipIdx`, first one. -/
theorem zipIdx_filter_head {α : Type*} (p : α → Bool) (l : List α) (n : Nat) :
    (((l.zipIdx n).filter (fun e => p e.1)).map (·.2)).head? = (l.findIdx? p).map (· + n) := by
  induction l generalizing n with
  | nil => rfl
  | cons x xs ih =>
    rw [List.zipIdx_cons, List.findIdx?_cons]
    by_cases h : p x = true
    · simp [h]
    · rw [List.filter_cons_of_neg (by simpa using h), ih]
      simp only [h, Bool.false_eq_true, if_false, Option.map_map]
      congr 1
      funext y; simp; omega

theorem findFirstNonZero_eq {K : Type*} [Zero K] [DecidableEq K] (vals : List K) :
    findFirstNonZero vals = vals.findIdx? (fun v => v ≠ 0) := by
  have := zipIdx_filter_head (fun v : K => decide (v ≠ 0)) vals 0
  simpa [findFirstNonZero] using this

theorem findFirstZero_eq {K : Type*} [Zero K] [DecidableEq K] (vals : List K) :
    findFirstZero vals = vals.findIdx? (fun v => v = 0) := by
  have := zipIdx_filter_head (fun v : K => decide (v = 0)) vals 0
  simpa [findFirstZero] using this

/-! cleaning -/

theorem stringCleaner_eq (text : Str) : stringCleaner text = join [' '] (splitWs text) := by
  rw [stringCleaner, splitWs_strip]

theorem words_no_space {s w : Str} (h : w ∈ splitWs s) : w ≠ [] ∧ ∀ c ∈ w, isSpace c = false := mem_splitWs h

theorem splitWs_stringCleaner (text : Str) : splitWs (stringCleaner text) = splitWs text := by
  rw [stringCleaner_eq, splitWs_join (fun w hw => mem_splitWs hw)]

/-! tabs -/

theorem zipIdx_filter_mem {α : Type*} {p : α → Bool} {l : List α} {i : Nat} :
    i ∈ ((l.zipIdx).filter (fun e => p e.1)).map (·.2) ↔ ∃ x, l[i]? = some x ∧ p x = true := by
  simp only [List.mem_map, List.mem_filter, Prod.exists, List.mk_mem_zipIdx_iff_getElem?, exists_eq_right]

theorem zipIdx_filter_sorted {α : Type*} (p : α → Bool) (l : List α) (n : Nat) :
    (((l.zipIdx n).filter (fun e => p e.1)).map (·.2)).Pairwise (· < ·) := by
  have h : ((l.zipIdx n).map (·.2)).Pairwise (· < ·) := by
    rw [List.zipIdx_map_snd]; exact List.pairwise_lt_range'
  exact List.Pairwise.sublist (List.Sublist.map _ List.filter_sublist) h

theorem hasSub_singleton {c : Char} {s : Str} : hasSub [c] s = true ↔ c ∈ s := by
  rw [hasSub_iff]
  constructor
  · rintro ⟨a, b, h⟩; rw [← h]; simp
  · intro h
    obtain ⟨a, b, h⟩ := List.append_of_mem h
    exact ⟨a, b, by simp [h]⟩

theorem replace_char_eq (line new : Str) (t : Char) :
    replace line [t] new = line.flatMap (fun c => if c = t then new else [c]) := by
  rw [replace_of_ne_nil (by simp)]
  induction line with
  | nil => rfl
  | cons c cs ih =>
    by_cases h : c = t
    · subst h
      have := replaceAux_hit (old := [c]) (new := new) (rest := cs) (by simp)
      rw [List.singleton_append] at this
      rw [this, ih]; simp
    · rw [replaceAux_miss, ih]
      · simp [h]
      · intro hp
        simp only [List.cons_prefix_cons, List.nil_prefix, and_true] at hp
        exact h hp.symm

end NeutUtilities
