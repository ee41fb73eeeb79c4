/-
C253: an output file that was reduced with ofile_reduce.py, read by mcnp_output_reader.py.
-/
import Verif.Props.OutputUtilities
import Verif.Props.McnpOutput6

set_option linter.unusedSimpArgs false

namespace Props
open Py NeutUtilities McnpOutput Spec
variable {F : Type}

/-- The lines of an output file that is reduced at its termination line `hit`: none of the lines before is one. -/
structure Reducible (lines before after : List Str) (hit : Str) : Prop where
  split : lines = before ++ hit :: after
  term : p!"      run terminated when" <+: hit
  first : ∀ l ∈ before, ¬ p!"      run terminated " <+: l

private theorem term_of {l : Str} (h : p!"      run terminated when" <+: l) : TermLine l :=
  List.IsPrefix.trans ⟨p!"when", rfl⟩ h

/-- What the reduced file holds. -/
private theorem reduced_lines {fs : FS} {infile ofile : Str} {lines before after : List Str} {hit : Str}
    (hread : (getLines infile fs).1 = .ok lines) (h : Reducible lines before after hit) (hw : fs.canWrite ofile = true) :
    OfileReduce.reduceOfile infile ofile fs = (.ok (), fs.put ofile (.file ((hit :: after).flatMap (fun l => l ++ ['\n'])))) ∧
    getLines ofile (fs.put ofile (.file ((hit :: after).flatMap (fun l => l ++ ['\n'])))) =
      (.ok (hit :: after), fs.put ofile (.file ((hit :: after).flatMap (fun l => l ++ ['\n'])))) := by
  obtain ⟨rfl, ht, hf⟩ := h
  refine ⟨C19_tail fs infile ofile before after hit hread ht (fun l hl h' => hf l hl (term_of h')) hw, ?_⟩
  cases hn : fs.node infile with
  | none => rw [getLines_none hn] at hread; simp at hread
  | some nd =>
    cases nd with
    | dir => rw [getLines_dir hn] at hread; simp at hread
    | file c =>
      rw [getLines_file hn] at hread
      simp only [Except.ok.injEq] at hread
      rw [getLines_file put_self, univNL_splitlines_flatMap]
      intro l hl
      apply mem_splitlines (s := univNL c)
      rw [hread]
      exact List.mem_append_right _ hl

/-- C253 (part that holds): every tally read from the lines of the reduced file is the one read from the whole file, with the same
    error if it cannot be read. -/
theorem C253_tallies_partial [LinearOrder F] (flt : Str → Option F) (minusOne : F) (enum : List Str → List Str) {fs : FS}
    {infile ofile : Str} {lines before after : List Str} {hit : Str} (hread : (getLines infile fs).1 = .ok lines)
    (h : Reducible lines before after hit) (hw : fs.canWrite ofile = true) :
    ∃ fs' lines', OfileReduce.reduceOfile infile ofile fs = (.ok (), fs') ∧ getLines ofile fs' = (.ok lines', fs') ∧
      ∀ n, readTally flt minusOne enum lines' n = readTally flt minusOne enum lines n := by
  obtain ⟨h1, h2⟩ := reduced_lines hread h hw
  refine ⟨_, _, h1, h2, fun n => ?_⟩
  rw [h.split]
  exact C95_final_results flt minusOne enum n (pre := []) (term_of h.term) (by simp) h.first

/-- C253 (part that holds): if the reduced file can be read as a whole, each of its tallies is one of the whole file. -/
theorem C253_file_partial [LinearOrder F] {flt : Str → Option F} {minusOne : F} {enum : List Str → List Str} (he : ∀ l, (enum l).Perm l)
    {fs fs1 fs2 fs3 : FS} {infile ofile : Str} {lines before after : List Str} {hit : Str} {out out' : Output F}
    (hread : (getLines infile fs).1 = .ok lines) (h : Reducible lines before after hit) (hw : fs.canWrite ofile = true)
    (hr : OfileReduce.reduceOfile infile ofile fs = (.ok (), fs1))
    (ho : readOutputFile flt minusOne enum infile fs = (.ok out, fs2)) (ho' : readOutputFile flt minusOne enum ofile fs1 = (.ok out', fs3)) :
    ∀ t ∈ out'.tallyData, t ∈ out.tallyData := by
  obtain ⟨h1, h2⟩ := reduced_lines hread h hw
  have hfs : fs1 = fs.put ofile (.file ((hit :: after).flatMap (fun l => l ++ ['\n']))) := by
    rw [h1] at hr
    exact (Prod.mk.inj hr).2.symm
  subst hfs
  obtain ⟨_, _, c, hc, ls, hls, ns, hns, _, hf, _⟩ := C167_file he ho
  obtain ⟨_, _, c', hc', ls', hls', ns', hns', _, hf', _⟩ := C167_file he ho'
  have e : ls = lines := by
    rw [getLines_file hc] at hread
    simp only [Except.ok.injEq] at hread
    rw [hls, hread]
  have e' : ls' = hit :: after := by
    rw [getLines_file hc'] at h2
    have := (Prod.mk.inj h2).1
    simp only [Except.ok.injEq] at this
    rw [hls', this]
  subst e e'
  intro t ht
  obtain ⟨i, hi, hti⟩ := List.getElem_of_mem ht
  have hi' : i < ns'.length := by rw [hf'.length_eq]; exact hi
  have hr' : readTally flt minusOne enum (hit :: after) ns'[i] = .ok t := by
    have := List.forall₂_iff_get.1 hf'
    have := this.2 i hi' hi
    simpa [hti] using this
  have hmem : ns'[i] ∈ ns := by
    obtain ⟨l, hl, hp⟩ := (hns' _).1 (List.getElem_mem hi')
    refine (hns _).2 ⟨l, ?_, hp⟩
    rw [h.split]
    exact List.mem_append_right _ hl
  obtain ⟨j, hj, hnj⟩ := List.getElem_of_mem hmem
  have hj' : j < out.tallyData.length := by rw [← hf.length_eq]; exact hj
  have hr2 : readTally flt minusOne enum ls ns[j] = .ok out.tallyData[j] := by
    have := List.forall₂_iff_get.1 hf
    simpa using this.2 j hj hj'
  rw [hnj, h.split, ← C95_final_results flt minusOne enum ns'[i] (pre := []) (term_of h.term) (by simp) h.first] at hr2
  rw [List.nil_append, hr'] at hr2
  have : t = out.tallyData[j] := by simpa using hr2
  rw [this]
  exact List.getElem_mem hj'

/-- C253 is violated: unless a line with the name of the program comes again behind the termination line, reading the reduced file
    raises ValueError, whatever its tallies are. -/
theorem C253_file_violated [LinearOrder F] (flt : Str → Option F) (minusOne : F) (enum : List Str → List Str) {fs : FS}
    {infile ofile : Str} {lines before after : List Str} {hit : Str} (hread : (getLines infile fs).1 = .ok lines)
    (h : Reducible lines before after hit) (hw : fs.canWrite ofile = true) (hno : ∀ l ∈ after, ¬ p!"1mcnp" <+: l) :
    ∃ fs', OfileReduce.reduceOfile infile ofile fs = (.ok (), fs') ∧ readOutputFile flt minusOne enum ofile fs' = (.error .ValueError, fs') := by
  obtain ⟨h1, h2⟩ := reduced_lines hread h hw
  refine ⟨_, h1, ?_⟩
  unfold readOutputFile
  rw [PyM.bind_ok h2, PyM.lift_run]
  congr 1
  unfold readOutputLines readRunDate
  have hnone : ∀ ls : List Str, (∀ l ∈ ls, l ∈ hit :: after) → findLine p!"1mcnp" ls 5 = .error .ValueError := by
    intro ls hls
    rw [findLine_none (text := p!"1mcnp") (k := 5) rfl]
    refine ⟨rfl, fun l hl hp => ?_⟩
    rcases List.mem_cons.1 (hls l hl) with rfl | hm
    · obtain ⟨r, hr⟩ := h.term
      obtain ⟨r', hr'⟩ := hp
      rw [← hr] at hr'
      cases hr'
    · exact hno l hm hp
  dsimp only
  rw [hnone]
  · rfl
  · intro l hl
    split at hl
    · exact List.mem_of_mem_take hl
    · exact hl

/-- C253 is violated for runs that ended in another way than by reaching a limit: the reader takes such a line for the end of the run,
    but the file cannot be reduced. -/
theorem C253_other_end_violated [LinearOrder F] (flt : Str → Option F) (minusOne : F) (enum : List Str → List Str) {fs : FS}
    {infile ofile : Str} {before after : List Str} {hit : Str} (hread : (getLines infile fs).1 = .ok (before ++ hit :: after))
    (ht : p!"      run terminated " <+: hit) (hf : ∀ l ∈ before, ¬ p!"      run terminated " <+: l)
    (hno : ∀ l ∈ hit :: after, ¬ p!"      run terminated when" <+: l) :
    OfileReduce.reduceOfile infile ofile fs = (.error .ValueError, fs) ∧
      ∀ n, readTally flt minusOne enum (before ++ hit :: after) n = readTally flt minusOne enum (hit :: after) n := by
  refine ⟨C19_missing fs infile ofile _ hread ?_, fun n => ?_⟩
  · intro l hl h
    rcases List.mem_append.1 hl with hl | hl
    · exact hf l hl (term_of h)
    · exact hno l hl h
  · exact C95_final_results flt minusOne enum n (pre' := []) ht hf (by simp)

example : Reducible [p!"1mcnp", p!"      run terminated when  100 particle histories were done.", p!"1tally        4"] [p!"1mcnp"] [p!"1tally        4"]
    p!"      run terminated when  100 particle histories were done." :=
  ⟨rfl, by decide, by decide⟩

example : p!"      run terminated " <+: p!"      run terminated because it got in trouble." ∧
    ¬ p!"      run terminated when" <+: p!"      run terminated because it got in trouble." := by decide

end Props
