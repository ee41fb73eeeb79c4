/-
C315: tallies and the cells they refer to, in an input that was read.
-/
import Verif.Props.McnpInput
import Verif.Props.McnpInput3
import Verif.Props.LostSurfaces
import Verif.Proofs.Except

set_option linter.unusedSectionVars false
set_option linter.unusedSimpArgs false

namespace Props
open Py McnpInput NeutUtilities Spec Spec.Mcnp
variable {F : Type}

/-- C315 is violated: if the cell cards of an input that can be read are replaced by those of any other input that can be read, it can still be
    read, with the cells of the other one and the tallies it had. -/
theorem C315_cells_violated {flt : Str → Option F} {path path' : Str} {cells cells' surfs surfs' rest rest' : List Str} {x y x' y' : Str}
    (hc : ∀ l ∈ cells, ¬ Spec.Blank l) (hc' : ∀ l ∈ cells', ¬ Spec.Blank l) (hs : ∀ l ∈ surfs, ¬ Spec.Blank l) (hs' : ∀ l ∈ surfs', ¬ Spec.Blank l)
    (hx : Spec.Blank x) (hy : Spec.Blank y) (hx' : Spec.Blank x') (hy' : Spec.Blank y') {i j : Input F}
    (h : readLines flt path (cells ++ x :: (surfs ++ y :: rest)) = .ok i) (h' : readLines flt path' (cells' ++ x' :: (surfs' ++ y' :: rest')) = .ok j) :
    ∃ k, readLines flt path (cells' ++ x :: (surfs ++ y :: rest)) = .ok k ∧ k.cells = j.cells ∧ k.tallies = i.tallies := by
  have b1 : splitBlocs (cells ++ x :: (surfs ++ y :: rest)) = .ok (cells, x :: surfs, y :: rest) := by
    rw [C78_blocks]; exact ⟨by simp, hc, ⟨_, surfs, rfl, hx, hs⟩, y, rest, rfl, hy⟩
  have b2 : splitBlocs (cells' ++ x' :: (surfs' ++ y' :: rest')) = .ok (cells', x' :: surfs', y' :: rest') := by
    rw [C78_blocks]; exact ⟨by simp, hc', ⟨_, surfs', rfl, hx', hs'⟩, y', rest', rfl, hy'⟩
  have b3 : splitBlocs (cells' ++ x :: (surfs ++ y :: rest)) = .ok (cells', x :: surfs, y :: rest) := by
    rw [C78_blocks]; exact ⟨by simp, hc', ⟨_, surfs, rfl, hx, hs⟩, y, rest, rfl, hy⟩
  obtain ⟨a, b, c, d, e, ha, hb, hc, hd, he, rfl⟩ := (read_blocks b1).1 h
  obtain ⟨a', b', c', d', e', ha', -, -, -, -, rfl⟩ := (read_blocks b2).1 h'
  exact ⟨_, (read_blocks b3).2 ⟨a', b, c, d, e, ha', hb, hc, hd, he, rfl⟩, rfl, rfl⟩

private theorem fold_get (lines : List Str) (n : Int) : ∀ (ns : List Int) (d : Dict Int Tally),
    n ∈ ns ∨ d.get n = some (readTallyLines n lines) →
    (ns.foldl (fun d n => d.set (readTallyLines n lines).number (readTallyLines n lines)) d).get n = some (readTallyLines n lines) := by
  intro ns
  induction ns with
  | nil => intro d h; exact h.resolve_left (by simp)
  | cons m ns ih =>
    intro d h
    refine ih _ ?_
    by_cases hm : m = n
    · subst hm; right; exact Dict.get_set_self (k := (m : Int)) ..
    · rcases h with h | h
      · left; exact (List.mem_cons.1 h).resolve_left (fun e => hm e.symm)
      · right; rw [Dict.get_set_ne]; exact h; exact fun e : n = m => hm e.symm

/-- C315 (part that holds): each tally that is listed keeps the words of its card, and with them the numbers of its cells, so the user of the
    input can look. Missing: a notice when it is read. -/
theorem C315_words_partial {flt : Str → Option F} {path : Str} {lines : List Str} {i : Input F} (h : readLines flt path lines = .ok i) (n : Nat)
    (hn : (n : Int) ∈ i.talNums) (f : Str → List Str) (hf : ∀ s, Spec.IsWords s (f s)) (first : Str) (body : List Str)
    (hcard : Card (TalHead n) i.dataBlock first body) :
    ∃ d t, i.tallies = some d ∧ d.get (n : Int) = some t ∧ t.data = join p!" " ((cardText first body).flatMap f) := by
  obtain ⟨cb, sb, db, hb⟩ : ∃ cb sb db, splitBlocs lines = .ok (cb, sb, db) := by
    cases hb : splitBlocs lines with
    | ok p => exact ⟨p.1, p.2.1, p.2.2, rfl⟩
    | error e => unfold readLines at h; rw [hb] at h; cases h
  obtain ⟨a, b, c, d, e, ha, -, -, -, -, rfl⟩ := (read_blocks hb).1 h
  refine ⟨_, readTallyLines n db, ?_, fold_get db n c [] (Or.inl hn), (C90_tally_partial n db f hf).2.2.1 first body hcard⟩
  show readTallies db c = _
  cases c with
  | nil => cases hn
  | cons m ms => rfl

example : (readLines (fun s => pyInt s) p!"x" [p!"title", p!"1 0 -5 imp:n=1", p!"", p!"5 so 3", p!"", p!"f4:n 1"]).toOption.map
    (fun i => (i.cells.keys, i.tallies.map (fun d => d.values.map (·.data)))) = some ([1], some [p!"f4:n 1"]) := by decide +kernel
example : (readLines (fun s => pyInt s) p!"x" [p!"title", p!"2 0 -5 imp:n=1", p!"", p!"5 so 3", p!"", p!"f4:n 1"]).toOption.map
    (fun i => (i.cells.keys, i.tallies.map (fun d => d.values.map (·.data)))) = some ([2], some [p!"f4:n 1"]) := by decide +kernel

end Props
