/- C243: the inventory handed to `output_mcnp_mat` (fispact_analysis.py). -/
import Verif.Model.TableEffects
import Verif.Proofs.Dict
import Verif.Proofs.MapM
import Mathlib.Data.Rat.Floor
import Mathlib.Data.List.Nodup

namespace Props
open Py FispactAnalysis
variable {K : Type} [Field K] [LinearOrder K]

/-- The table has a column of this name. -/
def HasColumn (t : Table K) (name : Str) : Prop := (t.get name).isSome

/-- Every column but Z, ZAID and atoms_norm is as it was, whether the call returns or raises. -/
theorem C243_others_partial (inv : Table K) {name : Str} (h1 : name ≠ p!"Z") (h2 : name ≠ p!"ZAID") (h3 : name ≠ p!"atoms_norm") :
    (outputMcnpMatOn inv).2.get name = inv.get name := by
  unfold outputMcnpMatOn
  split
  · rfl
  · simp only
    split
    · exact Dict.get_set_ne _ _ h1
    · split
      · exact Dict.get_set_ne _ _ h1
      · split
        · rw [Dict.get_set_ne _ _ h2, Dict.get_set_ne _ _ h1]
        · split
          · rw [Dict.get_set_ne _ _ h2, Dict.get_set_ne _ _ h1]
          · rw [Dict.get_set_ne _ _ h3, Dict.get_set_ne _ _ h2, Dict.get_set_ne _ _ h1]

/-- Every table with the elements but without their numbers is changed, also if the call raises: the caller's table gets the column Z. -/
theorem C243_changed_violated {inv : Table K} (h : HasColumn inv p!"element") (hz : ¬ HasColumn inv p!"Z") :
    HasColumn (outputMcnpMatOn inv).2 p!"Z" ∧ (outputMcnpMatOn inv).2 ≠ inv := by
  have key : HasColumn (outputMcnpMatOn inv).2 p!"Z" := by
    unfold HasColumn at h ⊢
    rw [Option.isSome_iff_exists] at h
    obtain ⟨es, he⟩ := h
    unfold outputMcnpMatOn
    rw [he]
    simp only
    have s1 : ∀ (d : Table K) c, ((d.set p!"Z" c).get p!"Z").isSome := fun d c => by rw [Dict.get_set_self]; rfl
    split
    · exact s1 _ _
    · split
      · exact s1 _ _
      · split
        · rw [Dict.get_set_ne _ _ (by decide)]; exact s1 _ _
        · split
          · rw [Dict.get_set_ne _ _ (by decide)]; exact s1 _ _
          · rw [Dict.get_set_ne _ _ (by decide), Dict.get_set_ne _ _ (by decide)]; exact s1 _ _
  exact ⟨key, fun h0 => hz (h0 ▸ key)⟩

/-- The inventories of the output reader, whose mass numbers are texts: no material is made, and the column Z stays behind. -/
theorem C243_failed_violated {inv : Table K} {es as : List (TCell K)} (he : inv.get p!"element" = some es) (ha : inv.get p!"A" = some as)
    (hl : es.length = as.length) {s : Str} (hs : .str s ∈ as) (hz : ¬ HasColumn inv p!"Z") :
    (outputMcnpMatOn inv).1 = .error .TypeError ∧ HasColumn (outputMcnpMatOn inv).2 p!"Z" := by
  refine ⟨?_, (C243_changed_violated (by simp [HasColumn, he]) hz).1⟩
  have hm : ∀ (zs as : List (TCell K)), zs.length = as.length → TCell.str s ∈ as →
      (zs.zip as).mapM (fun p => zaidCell p.1 p.2) = .error .TypeError := by
    intro zs as
    induction zs generalizing as with
    | nil => intro h1 h2; rw [List.length_nil] at h1; rw [List.length_eq_zero_iff.1 h1.symm] at h2; simp at h2
    | cons z zs ih =>
      intro h1 h2
      cases as with
      | nil => simp at h2
      | cons a as =>
        rw [List.zip_cons_cons, List.mapM_cons]
        rcases List.mem_cons.1 h2 with rfl | h2
        · cases z <;> rfl
        · rw [ih as (by simpa using h1) h2]
          cases z <;> cases a <;> rfl
  unfold outputMcnpMatOn
  rw [he]
  simp only
  rw [Dict.get_set_ne _ _ (by decide), ha]
  simp only
  rw [hm _ _ (by simpa using hl) hs]

omit [Field K] [LinearOrder K] in
private theorem set_self {d : Table K} {k : Str} {v : List (TCell K)} (h : d.get k = some v) (hn : (d.map (·.1)).Nodup) : d.set k v = d := by
  have hm : (k, v) ∈ d := by
    unfold Dict.get at h
    rw [Option.map_eq_some_iff] at h
    obtain ⟨⟨a, b⟩, h1, h2⟩ := h
    have := List.find?_some h1
    simp only [decide_eq_true_eq] at this
    have h3 := List.mem_of_find?_eq_some h1
    simp only at this h2
    rw [← this, ← h2]
    exact h3
  unfold Dict.set
  rw [if_pos]
  · conv_rhs => rw [← List.map_id d]
    apply List.map_congr_left
    rintro ⟨a, b⟩ hab
    by_cases ha : a = k
    · subst ha
      rw [if_pos rfl]
      have := List.inj_on_of_nodup_map hn hm hab rfl
      simpa using this
    · simp [ha]
  · rw [List.any_eq_true]
    exact ⟨(k, v), hm, by simp⟩

omit [Field K] [LinearOrder K] in
private theorem set_nodup {d : Table K} {k : Str} {v : List (TCell K)} (hn : (d.map (·.1)).Nodup) : ((d.set k v).map (·.1)).Nodup := by
  unfold Dict.set
  split
  · have : (d.map (fun e => if e.1 = k then (k, v) else e)).map (·.1) = d.map (·.1) := by
      rw [List.map_map]
      apply List.map_congr_left
      intro e _
      by_cases h : e.1 = k <;> simp [h]
    rw [this]; exact hn
  · rename_i h
    rw [List.map_append, List.nodup_append]
    refine ⟨hn, by simp, ?_⟩
    intro a ha b hb
    simp only [List.map_cons, List.map_nil, List.mem_singleton] at hb
    subst hb
    rintro rfl
    apply h
    obtain ⟨e, he, rfl⟩ := List.mem_map.1 ha
    rw [List.any_eq_true]
    exact ⟨e, he, by simp⟩

/-- A second call gives the same material and leaves the table as it is after the first. -/
theorem C243_again (inv : Table K) (hn : (inv.map (·.1)).Nodup) {r : List (TCell K) × List (TCell K)} (h : (outputMcnpMatOn inv).1 = .ok r) :
    outputMcnpMatOn (outputMcnpMatOn inv).2 = (.ok r, (outputMcnpMatOn inv).2) := by
  have ho : ∀ {name : Str}, name ≠ p!"Z" → name ≠ p!"ZAID" → name ≠ p!"atoms_norm" → (outputMcnpMatOn inv).2.get name = inv.get name :=
    fun h1 h2 h3 => C243_others_partial inv h1 h2 h3
  have he := ho (name := p!"element") (by decide) (by decide) (by decide)
  have ha := ho (name := p!"A") (by decide) (by decide) (by decide)
  have hat := ho (name := p!"atoms") (by decide) (by decide) (by decide)
  clear ho
  generalize hT : (outputMcnpMatOn inv).2 = T at he ha hat ⊢
  unfold outputMcnpMatOn at h hT
  rcases hes : inv.get p!"element" with _ | es
  · rw [hes] at h; cases h
  rw [hes] at h hT
  simp only at h hT
  rw [Dict.get_set_ne _ _ (by decide)] at h hT
  rcases has : inv.get p!"A" with _ | as
  · rw [has] at h; cases h
  rw [has] at h hT
  simp only at h hT
  rcases hz : ((es.map mapZ).zip as).mapM (fun p => zaidCell p.1 p.2) with e | zaids
  · rw [hz] at h; cases h
  rw [hz] at h hT
  simp only at h hT
  rw [Dict.get_set_ne _ _ (by decide), Dict.get_set_ne _ _ (by decide)] at h hT
  rcases hns : inv.get p!"atoms" with _ | ns
  · rw [hns] at h; cases h
  rw [hns] at h hT
  simp only at h hT
  rcases hnm : ns.mapM (normCell (cellSum ns)) with e | norm
  · rw [hnm] at h; cases h
  rw [hnm] at h hT
  simp only [Except.ok.injEq] at h hT
  have hTn : (T.map (·.1)).Nodup := by rw [← hT]; exact set_nodup (set_nodup (set_nodup hn))
  have s1 : T.set p!"Z" (es.map mapZ) = T :=
    set_self (by rw [← hT, Dict.get_set_ne _ _ (by decide), Dict.get_set_ne _ _ (by decide), Dict.get_set_self]) hTn
  have s2 : T.set p!"ZAID" zaids = T := set_self (by rw [← hT, Dict.get_set_ne _ _ (by decide), Dict.get_set_self]) hTn
  have s3 : T.set p!"atoms_norm" norm = T := set_self (by rw [← hT, Dict.get_set_self]) hTn
  unfold outputMcnpMatOn
  rw [he, hes]
  simp only
  rw [s1, ha, has]
  simp only
  rw [hz]
  simp only
  rw [s2, hat, hns]
  simp only
  rw [hnm]
  simp only
  rw [s3, h]

/-- The three columns of rows that `outputMcnpMat` (C45, C129) looks at. -/
def columnsOf (rows : List (Row K)) : Table K :=
  [(p!"element", rows.map (fun r => .str r.element)),
   (p!"A", rows.map (fun r => match r.a with | .int n => .num n | .str s => .str s)),
   (p!"atoms", rows.map (fun r => match r.atoms with | some x => .num x | none => .nan))]

def numCell : Option K → TCell K
  | some x => .num x
  | none => .nan

private def matStep (fmtZ : Option Nat → Str) (fmtN : Option K → Str) (total : K) (r : Row K) : Except Err (MatRow K) :=
  match r.a with
  | .str _ => .error .TypeError
  | .int a =>
    let z := (Constants.zDict.get r.element).map (fun z => z * 1000 + a)
    let n := if total = 0 then none else r.atoms.map (fun x => x / total)
    .ok ⟨z, n, p!"     " ++ fmtZ z ++ p!"  " ++ fmtN n⟩

private def aCell (r : Row K) : TCell K := match r.a with
  | .int n => .num n
  | .str s => .str s

private def atomCell (r : Row K) : TCell K := match r.atoms with
  | some x => .num x
  | none => .nan

private theorem zaids (fmtZ : Option Nat → Str) (fmtN : Option K → Str) (total : K) (rs : List (Row K)) :
    (((rs.map (fun r => TCell.str r.element)).map mapZ).zip (rs.map aCell)).mapM (fun p => zaidCell p.1 p.2) =
      (rs.mapM (matStep fmtZ fmtN total)).map (List.map (fun m => numCell (m.zaid.map (fun n : Nat => (n : K))))) := by
  induction rs with
  | nil => rfl
  | cons r rs ih =>
    simp only [List.map_cons, List.zip_cons_cons, List.mapM_cons]
    rw [ih]
    clear ih
    rcases ha : r.a with n | s
    · generalize rs.mapM (matStep fmtZ fmtN total) = X
      cases hzd : Constants.zDict.get r.element <;> cases X <;>
        simp [matStep, aCell, ha, mapZ, hzd, zaidCell, numCell, bind, Except.bind, pure, Except.pure, Except.map]
    · cases hzd : Constants.zDict.get r.element <;> simp [matStep, aCell, ha, mapZ, hzd, zaidCell, bind, Except.bind, Except.map]

private theorem norms (total : K) (rs : List (Row K)) : (rs.map atomCell).mapM (normCell total) =
    .ok (rs.map (fun r => numCell (if total = 0 then none else r.atoms.map (fun x => x / total)))) := by
  induction rs with
  | nil => rfl
  | cons r rows ih =>
    rw [List.map_cons, List.mapM_cons, ih]
    cases h : r.atoms <;> by_cases h0 : total = 0 <;> simp [atomCell, normCell, numCell, h, h0, bind, Except.bind, pure, Except.pure]

private theorem norms_ok (fmtZ : Option Nat → Str) (fmtN : Option K → Str) (total : K) (rs : List (Row K)) :
    ∀ out, rs.mapM (matStep fmtZ fmtN total) = .ok out →
      out.map (fun m => numCell m.norm) = rs.map (fun r => numCell (if total = 0 then none else r.atoms.map (fun x => x / total))) := by
  induction rs with
  | nil => intro out h; cases h; rfl
  | cons r rs ih =>
    intro out h
    rw [List.mapM_cons] at h
    rcases ha : r.a with n | s
    · generalize hX : rs.mapM (matStep fmtZ fmtN total) = X at h
      cases X with
      | error e => simp [matStep, ha, bind, Except.bind] at h
      | ok o =>
        have := ih o hX
        simp only [matStep, ha, bind, Except.bind, pure, Except.pure, Except.ok.injEq] at h
        rw [← h]
        simp [this]
    · simp [matStep, ha, bind, Except.bind] at h

/-- On such a table the result is the one of the row by row description. -/
theorem C243_result (fmtZ : Option Nat → Str) (fmtN : Option K → Str) (lib : Str) (rows : List (Row K)) :
    (outputMcnpMatOn (columnsOf rows)).1 = (outputMcnpMat fmtZ fmtN rows lib).map (fun out =>
      (out.map (fun m => numCell (m.zaid.map (fun n : Nat => (n : K)))), out.map (fun m => numCell m.norm))) := by
  have hsum : cellSum (rows.map atomCell) = (rows.filterMap (·.atoms)).sum := by
    unfold cellSum
    rw [List.filterMap_map]
    congr 1
    apply List.filterMap_congr
    intro r _
    cases h : r.atoms <;> simp [atomCell, h]
  have hmat : outputMcnpMat fmtZ fmtN rows lib = rows.mapM (matStep fmtZ fmtN (rows.filterMap (·.atoms)).sum) := rfl
  have hcol : columnsOf rows = [(p!"element", rows.map (fun r => .str r.element)), (p!"A", rows.map aCell), (p!"atoms", rows.map atomCell)] := rfl
  have h1 : Dict.get (columnsOf rows) p!"element" = some (rows.map (fun r => .str r.element)) := by rw [hcol]; rfl
  have h2 : Dict.get (columnsOf rows) p!"A" = some (rows.map aCell) := by rw [hcol]; rfl
  have h3 : Dict.get (columnsOf rows) p!"atoms" = some (rows.map atomCell) := by rw [hcol]; rfl
  generalize columnsOf rows = T at h1 h2 h3
  unfold outputMcnpMatOn
  rw [h1]
  simp only
  rw [Dict.get_set_ne _ _ (by decide), h2]
  simp only
  rw [hmat, zaids fmtZ fmtN (rows.filterMap (·.atoms)).sum]
  rcases hX : rows.mapM (matStep fmtZ fmtN (rows.filterMap (·.atoms)).sum) with e | out
  · rw [hX]; rfl
  · rw [hX]
    simp only [Except.map]
    rw [Dict.get_set_ne _ _ (by decide), Dict.get_set_ne _ _ (by decide), h3]
    simp only
    rw [hsum, norms, ← norms_ok fmtZ fmtN _ rows out hX]

/-- A table of hydrogen and oxygen: the material, and the columns of the caller's table afterwards. -/
example : ((outputMcnpMatOn ([(p!"element", [.str p!"H", .str p!"O"]), (p!"A", [.num 1, .num 16]), (p!"atoms", [.num 2, .num 2])] : Table ℚ)).2.map (·.1)) =
    [p!"element", p!"A", p!"atoms", p!"Z", p!"ZAID", p!"atoms_norm"] := by decide +kernel

example : (outputMcnpMatOn ([(p!"element", [.str p!"H"]), (p!"A", [.str p!"1"]), (p!"atoms", [.num 2])] : Table ℚ)).1 = .error .TypeError :=
  (C243_failed_violated (es := [.str p!"H"]) (as := [.str p!"1"]) rfl rfl rfl (s := p!"1") (by simp) (by unfold HasColumn; decide)).1

end Props
