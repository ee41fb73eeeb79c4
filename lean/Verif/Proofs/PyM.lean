/- Sequencing with a file system. -/
import Verif.Py.Base

namespace Py
variable {α β : Type}

theorem pym_bind_ok {m : PyM α} {f : α → PyM β} {fs fs2 : FS} {b : β} :
    (m >>= f) fs = (.ok b, fs2) ↔ ∃ a fs1, m fs = (.ok a, fs1) ∧ f a fs1 = (.ok b, fs2) := by
  rw [PyM.bind_run]
  rcases h : m fs with ⟨r, fs1⟩
  cases r with
  | ok a =>
    constructor
    · intro h'; exact ⟨a, fs1, rfl, h'⟩
    · rintro ⟨a', fs1', h1, h2⟩
      simp only [Prod.mk.injEq, Except.ok.injEq] at h1
      obtain ⟨rfl, rfl⟩ := h1
      exact h2
  | error e =>
    constructor
    · intro h'; simp at h'
    · rintro ⟨a', fs1', h1, _⟩; simp at h1

/-- A computation that changes at most the nodes in `S`, whether it returns or raises. -/
def Touches (S : Str → Prop) (m : PyM α) : Prop := ∀ fs, (m fs).2.perm = fs.perm ∧ ∀ q, ¬ S q → (m fs).2.node q = fs.node q

theorem Touches.pure {S : Str → Prop} (a : α) : Touches S (Pure.pure a : PyM α) := fun _ => ⟨rfl, fun _ _ => rfl⟩
theorem Touches.raise {S : Str → Prop} (e : Err) : Touches S (PyM.raise e : PyM α) := fun _ => ⟨rfl, fun _ _ => rfl⟩
theorem Touches.lift {S : Str → Prop} (x : Except Err α) : Touches S (PyM.lift x) := fun _ => ⟨rfl, fun _ _ => rfl⟩
theorem Touches.getFS {S : Str → Prop} : Touches S PyM.getFS := fun _ => ⟨rfl, fun _ _ => rfl⟩

theorem Touches.readText {S : Str → Prop} (p : Str) : Touches S (readText p) := by
  intro fs
  unfold Py.readText
  split <;> exact ⟨rfl, fun _ _ => rfl⟩

theorem Touches.writeText {S : Str → Prop} {p : Str} (c : Str) (h : S p) : Touches S (writeText p c) := by
  intro fs
  unfold Py.writeText
  split
  · refine ⟨rfl, fun q hq => ?_⟩
    show (if q = p then _ else fs.node q) = _
    rw [if_neg]
    rintro rfl; exact hq h
  · exact ⟨rfl, fun _ _ => rfl⟩

theorem Touches.bind {S : Str → Prop} {m : PyM α} {f : α → PyM β} (hm : Touches S m) (hf : ∀ a, Touches S (f a)) : Touches S (m >>= f) := by
  intro fs
  have h1 := hm fs
  rw [PyM.bind_run]
  rcases h : m fs with ⟨r, fs1⟩
  rw [h] at h1
  cases r with
  | ok a =>
    have h2 := hf a fs1
    exact ⟨h2.1.trans h1.1, fun q hq => (h2.2 q hq).trans (h1.2 q hq)⟩
  | error e => exact h1

theorem Touches.mono {S T : Str → Prop} {m : PyM α} (hm : Touches S m) (h : ∀ q, S q → T q) : Touches T m :=
  fun fs => ⟨(hm fs).1, fun q hq => (hm fs).2 q (fun hs => hq (h q hs))⟩

/-- A computation that changes nothing. -/
theorem Touches.same {m : PyM α} (hm : Touches (fun _ => False) m) (fs : FS) : (m fs).2 = fs := by
  have h := hm fs
  rcases hx : (m fs).2 with ⟨n, p⟩
  rw [hx] at h
  obtain ⟨h1, h2⟩ := h
  simp only at h1 h2
  have : n = fs.node := funext fun q => h2 q (fun h => h)
  rw [this, h1]

theorem Touches.run {m : PyM α} (hm : Touches (fun _ => False) m) (fs : FS) : m fs = ((m fs).1, fs) := by
  rw [Prod.ext_iff]; exact ⟨rfl, hm.same fs⟩

end Py
