import Verif.Sdss.SpecWcs
import Mathlib.Tactic.IntervalCases
import Mathlib.Tactic.Ring

/-! Lemmas for C131. -/

namespace Verif.Sdss

variable {R M : Type} [Field R] [DecidableEq R]

omit [Field R] [DecidableEq R] in
theorem things_len (w : Wcs R M) : (getThings w).length = 20 := by
  simp [getThings, pnames]

omit [Field R] [DecidableEq R] in
theorem getThing_eq (w : Wcs R M) (i : Nat) (h : i < 20) : (getThings w)[i]? = (getThing w i).toOption := by
  interval_cases i <;> rfl

omit [Field R] [DecidableEq R] in
theorem setThing_eq (w : Wcs R M) (i : Nat) (v : R) (h : i < 20) :
    ∃ w', setThing w i v = .ok w' ∧ getThings w' = (getThings w).set i v ∧ w'.liquid = w.liquid ∧
      w'.constantCd = w.constantCd ∧ w'.constantCdi = w.constantCdi := by
  interval_cases i <;> refine ⟨_, rfl, ?_, rfl, rfl, rfl⟩ <;> simp [getThings, pnames]

/-- The values with the thawed ones replaced. -/
def merge : List Bool → List R → List R → List R
  | true :: l, _ :: as, v :: p => v :: merge l as p
  | false :: l, a :: as, p => a :: merge l as p
  | _, as, _ => as

omit [Field R] [DecidableEq R] in
theorem merge_liquid : ∀ (l : List Bool) (as p : List R), as.length = l.length → p.length = l.countP (· = true) →
    liquidArray l (merge l as p) = p ∧ liquidArray (l.map (!·)) (merge l as p) = liquidArray (l.map (!·)) as := by
  intro l
  induction l with
  | nil =>
    intro as p h1 h2
    have : p = [] := by simpa using h2
    subst this
    simp [liquidArray]
  | cons b l ih =>
    intro as p h1 h2
    cases as with
    | nil => simp at h1
    | cons a as =>
      have h1' : as.length = l.length := by simpa using h1
      cases b with
      | false =>
        obtain ⟨i1, i2⟩ := ih as p h1' (by simpa using h2)
        refine ⟨by simpa [merge, liquidArray] using i1, ?_⟩
        show a :: liquidArray (l.map (!·)) (merge l as p) = a :: liquidArray (l.map (!·)) as
        rw [i2]
      | true =>
        cases p with
        | nil => simp at h2
        | cons v p =>
          obtain ⟨i1, i2⟩ := ih as p h1' (by simpa using h2)
          refine ⟨?_, by simpa [merge, liquidArray] using i2⟩
          show v :: liquidArray l (merge l as p) = v :: p
          rw [i1]

omit [Field R] [DecidableEq R] in
theorem setFrom_ok : ∀ (l : List Bool) (j : Nat) (p : List R) (w : Wcs R M), j + l.length = 20 → p.length = l.countP (· = true) →
    ∃ w', setFrom j l p w = .ok w' ∧ getThings w' = (getThings w).take j ++ merge l ((getThings w).drop j) p ∧ w'.liquid = w.liquid ∧
      w'.constantCd = w.constantCd ∧ w'.constantCdi = w.constantCdi := by
  intro l
  induction l with
  | nil =>
    intro j p w h1 h2
    refine ⟨w, rfl, ?_, rfl, rfl, rfl⟩
    simp [merge]
  | cons b l ih =>
    intro j p w h1 h2
    have hj : j < 20 := by simp only [List.length_cons] at h1; omega
    have hj' : j < (getThings w).length := by rw [things_len]; exact hj
    have h1' : (j + 1) + l.length = 20 := by simp only [List.length_cons] at h1; omega
    cases b with
    | false =>
      obtain ⟨w', e, e2, r⟩ := ih (j + 1) p w h1' (by simpa using h2)
      refine ⟨w', e, ?_, r⟩
      rw [e2, List.drop_eq_getElem_cons hj', ← List.take_append_getElem hj', List.append_assoc]
      rfl
    | true =>
      cases p with
      | nil => simp at h2
      | cons v p =>
        obtain ⟨w1, e1, t1, l1, c1, d1⟩ := setThing_eq w j v hj
        obtain ⟨w', e, e2, l2, c2, d2⟩ := ih (j + 1) p w1 h1' (by simpa using h2)
        refine ⟨w', ?_, ?_, l2.trans l1, c2.trans c1, d2.trans d1⟩
        · unfold setFrom
          rw [e1]
          exact e
        · rw [e2, t1, List.drop_eq_getElem_cons hj']
          have hl : j < ((getThings w).set j v).length := by rw [List.length_set]; exact hj'
          rw [← List.take_append_getElem hl]
          simp [merge, List.take_set_of_le, List.drop_set_of_lt]

end Verif.Sdss
