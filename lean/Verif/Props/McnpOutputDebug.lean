/- Property C293 of mcnp_output_reader.py: messages for debugging do not change what is read. -/
import Verif.Model.McnpOutputDebug
import Verif.Proofs.PyM
import Verif.Proofs.NeutUtilities
import Verif.Proofs.Except
import Verif.Props.McnpOutput6

namespace Props
open Py NeutUtilities McnpOutput Spec
variable {F : Type}

/-- Spec: a file of the working directory with the lines of a tally. -/
def IsTallyFile (q : Str) : Prop := ∃ n, q = p!"tally_test" ++ n ++ p!".txt"

private theorem tally_head [LinearOrder F] (flt : Str → Option F) (minusOne : F) (enum : List Str → List Str) (lines : List Str) (n : Str) :
    readTallyIn flt minusOne enum lines n = tallyHead lines n >>= fun h => readByType flt minusOne enum h.1 h.2 := by
  unfold readTallyIn tallyHead
  simp only [bind_assoc, pure_bind]
  rfl

private theorem name_inj {m n : Str} (h : debugName m = debugName n) : m = n := by
  unfold debugName at h
  exact List.append_cancel_left (List.append_cancel_right h)

private theorem canWrite_put {fs : FS} {p q c : Str} (hp : fs.canWrite p = true) (hq : fs.canWrite q = true) : (fs.put p (.file c)).canWrite q = true := by
  unfold FS.canWrite at hp hq ⊢
  simp only [Bool.and_eq_true] at hp hq ⊢
  refine ⟨⟨hq.1.1, ?_⟩, ?_⟩
  · have h := hq.1.2
    unfold FS.parentOk at h ⊢
    split at h <;> simp_all [FS.put]
    rename_i d _ _
    intro hd
    subst hd
    exact absurd h hp.2
  · unfold FS.put
    simp only
    split
    · rfl
    · exact hq.2

private theorem head_int {lines : List Str} {n : Str} {h : Tally F × List Str} (hh : tallyHead lines n = .ok h) : (pyInt n).isSome = true := by
  unfold tallyHead at hh
  simp only [ex_bind_ok] at hh
  obtain ⟨_, _, _, _, _, _, _, _, _, _, k, hk, _⟩ := hh
  cases hp : pyInt n with
  | none => rw [hp] at hk; cases hk
  | some k => rfl

private theorem head_lines {lines : List Str} {n : Str} {h : Tally F × List Str} (hh : tallyHead (finalLines lines) n = .ok h) :
    h.2 <:+: lines ∧ h.2.length < lines.length := by
  have hf : finalLines lines <:+ lines := by
    unfold finalLines
    split
    · exact List.drop_suffix _ _
    · split
      · exact List.drop_suffix _ _
      · exact List.suffix_rfl
  unfold tallyHead at hh
  simp only [ex_bind_ok, ex_pure, Except.ok.injEq] at hh
  obtain ⟨r, _, _, h1, _, _, _, _, _, _, _, _, _, _, _, hr, e, _, rfl⟩ := hh
  simp only
  have hlt : r + 1 < (finalLines lines).length := by
    by_contra hc

    unfold at' at h1
    rw [List.getElem?_eq_none (by omega)] at h1
    cases h1
  have hs : ∀ (l : List Str) (k : Int), sliceI l 0 k <:+: l := fun l k =>
    ((List.take_prefix _ _).isInfix |> (List.drop_suffix _ _).isInfix.trans)
  have hi := hs ((finalLines lines).drop (r + 1)) ((e : Int) - 1)
  refine ⟨hi.trans ((List.drop_suffix _ _).isInfix.trans hf.isInfix), ?_⟩
  have := hi.length_le
  have := hf.length_le
  rw [List.length_drop] at *
  omega

/-- One tally: nothing but the file, or the failure to write it, is different. -/
private theorem tally_logged [LinearOrder F] (flt : Str → Option F) (minusOne : F) (enum : List Str → List Str) (lines : List Str) (n : Str) (fs : FS)
    (hw : (pyInt n).isSome = true → fs.canWrite (debugName n) = true) :
    (readTallyLogged true flt minusOne enum lines n fs).1 = readTally flt minusOne enum lines n ∧
    (∀ q, fs.canWrite q = true → (readTallyLogged true flt minusOne enum lines n fs).2.canWrite q = true) ∧
    (∀ q, q ≠ debugName n → (readTallyLogged true flt minusOne enum lines n fs).2.node q = fs.node q) ∧
    ∀ h, tallyHead (F := F) (finalLines lines) n = .ok h →
      (readTallyLogged true flt minusOne enum lines n fs).2.node (debugName n) = some (.file (h.2.flatMap (· ++ ['\n']))) := by
  unfold readTallyLogged readTally
  rw [tally_head]
  cases hh : tallyHead (F := F) (finalLines lines) n with
  | error e =>
    rw [PyM.bind_err (PyM.lift_run _ fs)]
    exact ⟨rfl, fun _ h => h, fun _ _ => rfl, fun h hc => by cases hc⟩
  | ok h =>
    replace hw := hw (head_int hh)
    rw [PyM.bind_ok (PyM.lift_run _ fs), PyM.bind_ok (show printLines true n h.2 fs = _ from writeLines_ok h.2 hw), PyM.lift_run]
    refine ⟨rfl, fun q hq => canWrite_put hw hq, fun q hq => if_neg hq, fun h' hc => ?_⟩
    cases hc
    exact if_pos rfl

private theorem tally_quiet [LinearOrder F] (flt : Str → Option F) (minusOne : F) (enum : List Str → List Str) (lines : List Str) (n : Str) (fs : FS) :
    readTallyLogged false flt minusOne enum lines n fs = (readTally flt minusOne enum lines n, fs) := by
  unfold readTallyLogged readTally
  rw [tally_head]
  cases hh : tallyHead (F := F) (finalLines lines) n with
  | error e => rfl
  | ok h => rfl

private theorem tallies_quiet [LinearOrder F] (flt : Str → Option F) (minusOne : F) (enum : List Str → List Str) (lines : List Str) (ns : List Str) (fs : FS) :
    readTalliesLogged false flt minusOne enum lines ns fs = (ns.mapM (readTally flt minusOne enum lines), fs) := by
  induction ns with
  | nil => rfl
  | cons n ns ih =>
    rw [readTalliesLogged, List.mapM_cons]
    cases ht : readTally flt minusOne enum lines n with
    | error e => rw [PyM.bind_err (fs' := fs) (e := e) (by rw [tally_quiet, ht])]; rfl
    | ok t =>
      rw [PyM.bind_ok (fs' := fs) (a := t) (by rw [tally_quiet, ht]), ex_ok_bind]
      cases hs : ns.mapM (readTally flt minusOne enum lines) with
      | error e => rw [PyM.bind_err (fs' := fs) (e := e) (by rw [ih, hs])]; rfl
      | ok ts => rw [PyM.bind_ok (fs' := fs) (a := ts) (by rw [ih, hs])]; rfl

private theorem tallies_logged [LinearOrder F] (flt : Str → Option F) (minusOne : F) (enum : List Str → List Str) (lines : List Str) (ns : List Str) (fs : FS)
    (hw : ∀ n ∈ ns, (pyInt n).isSome = true → fs.canWrite (debugName n) = true) :
    (readTalliesLogged true flt minusOne enum lines ns fs).1 = ns.mapM (readTally flt minusOne enum lines) ∧
    (∀ q, (∀ n ∈ ns, q ≠ debugName n) → (readTalliesLogged true flt minusOne enum lines ns fs).2.node q = fs.node q) ∧
    ∀ ts, ns.mapM (readTally flt minusOne enum lines) = .ok ts → ∀ n h, (n ∈ ns ∨ fs.node (debugName n) = some (.file (h.2.flatMap (· ++ ['\n'])))) →
      tallyHead (F := F) (finalLines lines) n = .ok h →
      (readTalliesLogged true flt minusOne enum lines ns fs).2.node (debugName n) = some (.file (h.2.flatMap (· ++ ['\n']))) := by
  induction ns generalizing fs with
  | nil =>
    refine ⟨rfl, fun _ _ => rfl, fun ts _ n h hn _ => ?_⟩
    rcases hn with hn | hn
    · cases hn
    · exact hn
  | cons n ns ih =>
    obtain ⟨h1, h2, h3, h4⟩ := tally_logged flt minusOne enum lines n fs (hw n (by simp))
    rw [readTalliesLogged, List.mapM_cons]
    rcases hr : readTallyLogged true flt minusOne enum lines n fs with ⟨r, fs1⟩
    rw [hr] at h1 h2 h3 h4
    simp only at h1 h2 h3 h4
    subst h1
    cases ht : readTally flt minusOne enum lines n with
    | error e =>
      rw [ht] at hr
      rw [PyM.bind_err hr]
      exact ⟨rfl, fun q hq => h3 q (hq n (by simp)), fun ts hts => by cases hts⟩
    | ok t =>
      rw [ht] at hr
      rw [PyM.bind_ok hr, ex_ok_bind]
      obtain ⟨i1, i2, i3⟩ := ih fs1 (fun m hm hi => h2 _ (hw m (by simp [hm]) hi))
      rcases hs : readTalliesLogged true flt minusOne enum lines ns fs1 with ⟨r, fs2⟩
      rw [hs] at i1 i2 i3
      simp only at i1 i2 i3
      subst i1
      have other : ∀ q, (∀ m ∈ n :: ns, q ≠ debugName m) → fs2.node q = fs.node q := fun q hq => by
        rw [i2 q (fun m hm => hq m (by simp [hm])), h3 q (hq n (by simp))]
      cases hm : ns.mapM (readTally flt minusOne enum lines) with
      | error e =>
        rw [hm] at hs
        rw [PyM.bind_err hs]
        exact ⟨rfl, other, fun ts hts => by cases hts⟩
      | ok ts =>
        rw [hm] at hs
        rw [PyM.bind_ok hs]
        refine ⟨rfl, other, fun ts' _ m h hmem hh => ?_⟩
        refine i3 ts hm m h ?_ hh
        by_cases hmn : m = n
        · subst hmn; exact .inr (h4 h hh)
        · rcases hmem with hmem | hmem
          · exact .inl ((List.mem_cons.1 hmem).resolve_left hmn)
          · right; rw [h3 _ (fun hc => hmn (name_inj hc))]; exact hmem

/-- Without messages for debugging the run is the one of C167. -/
theorem C293_off [LinearOrder F] (flt : Str → Option F) (minusOne : F) (enum : List Str → List Str) (path : Str) (fs : FS) :
    readOutputFileLogged false flt minusOne enum path fs = readOutputFile flt minusOne enum path fs := by
  unfold readOutputFileLogged readOutputFile
  rw [PyM.bind_run, PyM.bind_run]
  rcases getLines path fs with ⟨r, fs1⟩
  cases r with
  | error e => rfl
  | ok lines =>
    simp only
    unfold readOutputLines
    rw [PyM.lift_run]
    cases readRunDate lines with
    | error e => rfl
    | ok dt =>
      rw [PyM.bind_ok (PyM.lift_run _ _), ex_ok_bind]
      simp only
      cases readTableIf readTable60 lines (getTableDict lines) p!"60" with
      | error e => rfl
      | ok t60 =>
        rw [PyM.bind_ok (PyM.lift_run _ _), ex_ok_bind]
        cases readTableIf readTable101 lines (getTableDict lines) p!"101" with
        | error e => rfl
        | ok t101 =>
          rw [PyM.bind_ok (PyM.lift_run _ _), ex_ok_bind]
          cases getTallyNums lines with
          | error e => rfl
          | ok tls =>
            rw [PyM.bind_ok (PyM.lift_run _ _), ex_ok_bind]
            cases hm : (enum tls).mapM (readTally flt minusOne enum lines) with
            | error e => rw [PyM.bind_err (fs' := fs1) (e := e) (by rw [tallies_quiet, hm])]; rfl
            | ok ts => rw [PyM.bind_ok (fs' := fs1) (a := ts) (by rw [tallies_quiet, hm])]; rfl

/-- The whole run in its two parts. -/
private theorem file_parts [LinearOrder F] (debug : Bool) (flt : Str → Option F) (minusOne : F) (enum : List Str → List Str) (path : Str) (fs : FS) :
    (∃ e, readOutputFileLogged debug flt minusOne enum path fs = (.error e, fs) ∧ readOutputFile flt minusOne enum path fs = (.error e, fs)) ∨
    ∃ lines tls, ∃ mk : List (Tally F) → Output F, getLines path fs = (.ok lines, fs) ∧ getTallyNums lines = .ok tls ∧ (∀ ts, (mk ts).tallyData = ts) ∧
      readOutputFileLogged debug flt minusOne enum path fs =
        (match readTalliesLogged debug flt minusOne enum lines (enum tls) fs with
          | (.ok ts, fs') => (.ok (mk ts), fs')
          | (.error e, fs') => (.error e, fs')) ∧
      readOutputFile flt minusOne enum path fs = ((enum tls).mapM (readTally flt minusOne enum lines) >>= fun ts => .ok (mk ts), fs) := by
  unfold readOutputFileLogged readOutputFile
  have hfs : (getLines path fs).2 = fs := by
    cases hn : fs.node path with
    | none => rw [getLines_none hn]
    | some nd =>
      cases nd with
      | dir => rw [getLines_dir hn]
      | file c => rw [getLines_file hn]
  rw [PyM.bind_run, PyM.bind_run]
  rcases hgl : getLines path fs with ⟨r, fs1⟩
  rw [hgl] at hfs
  replace hfs : fs1 = fs := hfs
  subst hfs
  cases r with
  | error e => exact .inl ⟨e, rfl, rfl⟩
  | ok lines =>
    simp only
    unfold readOutputLines
    rw [PyM.lift_run]
    cases readRunDate lines with
    | error e => exact .inl ⟨e, rfl, rfl⟩
    | ok dt =>
      rw [PyM.bind_ok (PyM.lift_run _ _), ex_ok_bind]
      simp only
      cases readTableIf readTable60 lines (getTableDict lines) p!"60" with
      | error e => exact .inl ⟨e, rfl, rfl⟩
      | ok t60 =>
        rw [PyM.bind_ok (PyM.lift_run _ _), ex_ok_bind]
        cases readTableIf readTable101 lines (getTableDict lines) p!"101" with
        | error e => exact .inl ⟨e, rfl, rfl⟩
        | ok t101 =>
          rw [PyM.bind_ok (PyM.lift_run _ _), ex_ok_bind]
          cases hg : getTallyNums lines with
          | error e => exact .inl ⟨e, rfl, rfl⟩
          | ok tls =>
            rw [PyM.bind_ok (PyM.lift_run _ _), ex_ok_bind]
            refine .inr ⟨lines, tls, fun ts => ⟨path, readVersion lines, dt.1, dt.2, tls.length, countRendevous lines, ts, t60, t101,
              (readCommentsWarnings lines).2, (readCommentsWarnings lines).1, getTableDict lines, checkFatal lines⟩, rfl, hg, fun _ => rfl, ?_, rfl⟩
            rw [PyM.bind_run]
            rcases readTalliesLogged debug flt minusOne enum lines (enum tls) fs1 with ⟨r, fs2⟩
            cases r <;> rfl

/-- C293: with messages for debugging the same is read, or fails in the same way, if the files of the tallies can be written.
    Missing: files that cannot be written. -/
theorem C293_same_partial [LinearOrder F] (flt : Str → Option F) (minusOne : F) (enum : List Str → List Str) (path : Str) (fs : FS)
    (hw : ∀ n, (pyInt n).isSome = true → fs.canWrite (p!"tally_test" ++ n ++ p!".txt") = true) :
    (readOutputFileLogged true flt minusOne enum path fs).1 = (readOutputFile flt minusOne enum path fs).1 := by
  rcases file_parts true flt minusOne enum path fs with ⟨e, h1, h2⟩ | ⟨lines, tls, mk, _, _, _, h1, h2⟩
  · rw [h1, h2]
  · obtain ⟨i1, _⟩ := tallies_logged flt minusOne enum lines (enum tls) fs (fun n _ hi => hw n hi)
    rw [h1, h2]
    rcases hrt : readTalliesLogged true flt minusOne enum lines (enum tls) fs with ⟨r, fs2⟩
    rw [hrt] at i1
    replace i1 : r = _ := i1
    subst i1
    cases (enum tls).mapM (readTally flt minusOne enum lines) <;> rfl

private theorem touches_tallies [LinearOrder F] (debug : Bool) (flt : Str → Option F) (minusOne : F) (enum : List Str → List Str) (lines ns : List Str) :
    Touches IsTallyFile (readTalliesLogged debug flt minusOne enum lines ns) := by
  induction ns with
  | nil => exact Touches.pure _
  | cons n ns ih =>
    refine Touches.bind (Touches.bind (Touches.lift _) (fun h => Touches.bind ?_ (fun _ => Touches.lift _))) (fun _ => Touches.bind ih (fun _ => Touches.pure _))
    unfold printLines
    split
    · intro fs
      cases hc : fs.canWrite (debugName n) with
      | false => rw [writeLines_err _ hc]; exact ⟨rfl, fun _ _ => rfl⟩
      | true =>
        rw [writeLines_ok _ hc]
        refine ⟨rfl, fun q hq => if_neg ?_⟩
        rintro rfl
        exact hq ⟨n, rfl⟩
    · exact Touches.pure _

/-- C293: no file but those of the tallies is changed, whether the reading succeeds or fails; the other results of the file system are the same. -/
theorem C293_others_kept [LinearOrder F] (debug : Bool) (flt : Str → Option F) (minusOne : F) (enum : List Str → List Str) (path : Str) (fs : FS) (q : Str)
    (hq : ¬ IsTallyFile q) : (readOutputFileLogged debug flt minusOne enum path fs).2.node q = fs.node q := by
  rcases file_parts debug flt minusOne enum path fs with ⟨e, h1, h2⟩ | ⟨lines, tls, mk, _, _, _, h1, h2⟩
  · rw [h1]
  · have h := (touches_tallies debug flt minusOne enum lines (enum tls) fs).2 q hq
    rw [h1]
    rcases hr : readTalliesLogged debug flt minusOne enum lines (enum tls) fs with ⟨r, fs2⟩
    rw [hr] at h
    cases r <;> exact h

/-- C293: every tally that was read has its file, with lines of the output file that stand one behind the other, not all of them. -/
theorem C293_files [LinearOrder F] (flt : Str → Option F) (minusOne : F) (enum : List Str → List Str) (he : ∀ l, (enum l).Perm l) (path : Str) (fs : FS)
    (hw : ∀ n, (pyInt n).isSome = true → fs.canWrite (p!"tally_test" ++ n ++ p!".txt") = true) {out : Output F}
    (hr : (readOutputFile flt minusOne enum path fs).1 = .ok out) {c : Str} (hc : fs.node path = some (.file c)) {l n v : Str} {ws : List Str}
    (hl : l ∈ splitlines (univNL c)) (h1 : p!"1tally     " <+: l) (hwd : IsWords l (v :: n :: ws)) :
    ∃ ls, ls <:+: splitlines (univNL c) ∧ ls.length < (splitlines (univNL c)).length ∧
      (readOutputFileLogged true flt minusOne enum path fs).2.node (p!"tally_test" ++ n ++ p!".txt") = some (.file (ls.flatMap (· ++ ['\n']))) := by
  rcases file_parts true flt minusOne enum path fs with ⟨e, g1, g2⟩ | ⟨lines, tls, mk, gl, gt, _, g1, g2⟩
  · rw [g2] at hr; cases hr
  · rw [getLines_file hc] at gl
    simp only [Prod.mk.injEq, Except.ok.injEq, and_true] at gl
    rw [gl] at hl ⊢
    have hn : n ∈ enum tls := by
      rw [(he tls).mem_iff, ((C93_numbers_partial lines).1 tls gt).2.1 n]
      exact ⟨l, hl, h1, v, ws, hwd⟩
    rw [g2] at hr
    obtain ⟨ts, hts, _⟩ := (ex_bind_ok.1 hr)
    obtain ⟨t, ht⟩ : ∃ t, readTally flt minusOne enum lines n = .ok t := by
      have hf := mapM_except_ok_iff.1 hts
      rename_i hok
      clear hts g1 g2 hr gt hok
      revert hn
      generalize enum tls = ns at hf
      intro hn
      induction hf with
      | nil => cases hn
      | cons ha _ ih =>
        rcases List.mem_cons.1 hn with rfl | hn
        · exact ⟨_, ha⟩
        · exact ih hn
    unfold readTally at ht
    rw [tally_head] at ht
    obtain ⟨h, hh, _⟩ := ex_bind_ok.1 ht
    obtain ⟨i1, _, i3⟩ := tallies_logged flt minusOne enum lines (enum tls) fs (fun n _ hi => hw n hi)
    have hnode := i3 ts hts n h (.inl hn) hh
    have hsub := head_lines hh
    refine ⟨h.2, hsub.1, hsub.2, ?_⟩
    rw [g1]
    rcases hq : readTalliesLogged true flt minusOne enum lines (enum tls) fs with ⟨r, fs2⟩
    rw [hq] at hnode
    cases r <;> exact hnode

/-- C293 is violated: where the files of the tallies cannot be written, an output file that is fine cannot be read. -/
theorem C293_unwritable_violated [LinearOrder F] (flt : Str → Option F) (minusOne : F) (enum : List Str → List Str) (path : Str) (fs : FS)
    (hw : ∀ q, IsTallyFile q → fs.canWrite q = false) {out : Output F} (hr : (readOutputFile flt minusOne enum path fs).1 = .ok out)
    (ht : out.tallyData ≠ []) : readOutputFileLogged true flt minusOne enum path fs = (.error .OSError, fs) := by
  rcases file_parts true flt minusOne enum path fs with ⟨e, g1, g2⟩ | ⟨lines, tls, mk, gl, gt, gm, g1, g2⟩
  · rw [g2] at hr; cases hr
  · rw [g2] at hr
    obtain ⟨ts, hts, hmk⟩ := ex_bind_ok.1 hr
    cases hmk
    rw [gm] at ht
    rw [g1]
    cases hns : enum tls with
    | nil => rw [hns] at hts; cases hts; exact absurd rfl ht
    | cons n ns =>
      rw [hns, List.mapM_cons] at hts
      obtain ⟨t, htn, _⟩ := ex_bind_ok.1 hts
      unfold readTally at htn
      rw [tally_head] at htn
      obtain ⟨h, hh, _⟩ := ex_bind_ok.1 htn
      have : readTallyLogged true flt minusOne enum lines n fs = (.error .OSError, fs) := by
        unfold readTallyLogged
        rw [hh, PyM.bind_ok (PyM.lift_run _ fs), PyM.bind_err (show printLines true n h.2 fs = _ from writeLines_err h.2 (hw _ ⟨n, rfl⟩))]
      rw [readTalliesLogged, PyM.bind_err this]

/-- C293 is violated: an output file called as the file of one of its tallies is replaced by the lines of that tally. -/
theorem C293_own_violated [LinearOrder F] (flt : Str → Option F) (minusOne : F) (enum : List Str → List Str) (he : ∀ l, (enum l).Perm l) (n : Str) (fs : FS)
    (hw : ∀ n, (pyInt n).isSome = true → fs.canWrite (p!"tally_test" ++ n ++ p!".txt") = true) {out : Output F}
    (hr : (readOutputFile flt minusOne enum (p!"tally_test" ++ n ++ p!".txt") fs).1 = .ok out) {c : Str}
    (hc : fs.node (p!"tally_test" ++ n ++ p!".txt") = some (.file c)) {l v : Str} {ws : List Str}
    (hl : l ∈ splitlines (univNL c)) (h1 : p!"1tally     " <+: l) (hwd : IsWords l (v :: n :: ws)) :
    ∃ ls : List Str, ls.length < (splitlines (univNL c)).length ∧
      (readOutputFileLogged true flt minusOne enum (p!"tally_test" ++ n ++ p!".txt") fs).2.node (p!"tally_test" ++ n ++ p!".txt") =
        some (.file (ls.flatMap (· ++ ['\n']))) := by
  obtain ⟨ls, _, h2, h3⟩ := C293_files flt minusOne enum he _ fs hw hr hc hl h1 hwd
  exact ⟨ls, h2, h3⟩

/-- An output file with one tally, readable or not for writing. -/
private def exDebug (p : Str) (w : Bool) : FS := ⟨fun q => if q = p then some (.file (p!"1mcnp version 6 05/05/20 10:00:00\n1tally        7        nps =       10\n" ++
  p!"           tally type 7\n           particle(s): neutrons\n last line\n\n1tally fluctuation charts\n")) else none, fun _ => w⟩

private def exRun (debug : Bool) (p : Str) (w : Bool) : Except Err (Output ℚ) × FS := readOutputFileLogged debug (fun _ => none) (-1) id p (exDebug p w)

example : ((exRun false p!"out" false).1.toOption.map (fun o => o.tallyData.map (fun t => (t.number, t.particle)))) = some [(7, p!"neutrons")] := by decide +kernel
example : ((exRun true p!"out" true).1.toOption.map (fun o => o.tallyData.map (fun t => (t.number, t.particle)))) = some [(7, p!"neutrons")] := by decide +kernel
example : (exRun true p!"out" true).2.node p!"tally_test7.txt" = some (.file p!"           tally type 7\n           particle(s): neutrons\n last line\n") := by
  decide +kernel
example : (exRun true p!"out" true).2.node p!"out" = (exDebug p!"out" true).node p!"out" := by decide +kernel
example : ((exRun true p!"out" false).1 matches .error .OSError) = true := by decide +kernel
example : (exRun true p!"tally_test7.txt" true).2.node p!"tally_test7.txt" =
    some (.file p!"           tally type 7\n           particle(s): neutrons\n last line\n") := by decide +kernel

end Props
