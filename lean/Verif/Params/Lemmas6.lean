import Verif.Params.Lemmas5

/-! Helper lemmas for the arithmetic operators (C17). -/

namespace Verif.Params

open Verif

variable {α : Type}

theorem noMissing_blank (c : α) (t : Par α) : NoMissing (blank c t) ↔ NoMissing t := by
  induction t using Par.rec (motive_2 := fun u => NoMissingSubs (blankSubs c u) ↔ NoMissingSubs u) with
  | scalar s => simp [blank, NoMissing]
  | plist l => simp [blank, NoMissing]
  | multi s ih => simpa [blank, NoMissing] using ih
  | nil => simp [blankSubs, NoMissingSubs]
  | cons nm l s rest ih1 ih2 => simp [blankSubs, NoMissingSubs, ih1, ih2]
  | missing nm l rest ih => simp [blankSubs, NoMissingSubs]

theorem noMissing_copy (t t' : Par α) (h : copy t = .ok t') : NoMissing t' := by
  induction t using Par.rec
    (motive_2 := fun u => ∀ u', copySubs u = .ok u' → NoMissingSubs u') generalizing t' with
  | scalar s => simp only [copy, Except.ok.injEq] at h; subst h; simp [NoMissing]
  | plist l => simp only [copy, Except.ok.injEq] at h; subst h; simp [NoMissing]
  | multi s ih =>
    simp only [copy] at h
    cases hc : copySubs s with
    | error e => simp [hc, Except.map] at h
    | ok u =>
      simp only [hc, Except.map, Except.ok.injEq] at h; subst h
      simpa [NoMissing] using ih u hc
  | nil u' => rename_i h; simp only [copySubs, Except.ok.injEq] at h; subst h; simp [NoMissingSubs]
  | cons nm l s rest ih1 ih2 u' =>
    rename_i h
    simp only [copySubs] at h
    cases hs : copy s with
    | error e => simp [hs] at h
    | ok s' =>
      cases hr : copySubs rest with
      | error e => simp [hs, hr] at h
      | ok r' =>
        simp only [hs, hr, Except.ok.injEq] at h; subst h
        exact ⟨ih1 s' hs, ih2 r' hr⟩
  | missing nm l rest ih u' => rename_i h; simp [copySubs] at h

/-- Operator results have no missing parts. -/
theorem noMissing_binop (f : α → α → α) (c0 : α) (t r : Par α) (o : Operand α)
    (h : binop f t o = .ok r) : NoMissing r := by
  simp only [binop] at h
  cases hc : copy t with
  | error e => simp [hc] at h
  | ok c =>
    simp only [hc] at h
    cases hs : setAllParams c (opVector f c o) with
    | mk r' e =>
      rw [hs] at h
      cases e with
      | some e => simp at h
      | none =>
        simp only [Except.ok.injEq] at h; subst h
        rw [← noMissing_blank c0]
        have := setAllParams_blank c0 c (opVector f c o)
        rw [hs] at this
        rw [this, noMissing_blank]
        exact noMissing_copy t c hc

/-- Elementwise result of an operator. -/
theorem binop_ok (f : α → α → α) (t : Par α) (o : Operand α) (hm : NoMissing t)
    (hlen : ∀ u, o = .obj u → (allValues u).length = (allValues t).length) :
    ∃ r, binop f t o = .ok r ∧ (leaves r).map (·.1) = (leaves t).map (·.1) ∧
      allValues r = match o with
        | .obj u => List.zipWith f (allValues t) (allValues u)
        | .num x => (allValues t).map (f · x) := by
  obtain ⟨c, hc1, hc2⟩ := copy_ok t hm
  have hcl : leaves c = leaves t := hc2 true
  have hca : getAllParams c = allValues t := by
    rw [getAllParams_eq true c]; simp only [allValues, ← hcl]; rfl
  have hvec : (opVector f c o).length = (getAllParams c).length := by
    cases o with
    | obj u =>
      have h1 := hlen u rfl
      have h2 : getAllParams u = allValues u := getAllParams_eq true u
      simp [opVector, hca, h2, h1]
    | num x => simp [opVector]
  obtain ⟨h1, h2⟩ := setAllParams_ok c (opVector f c o) hvec
  refine ⟨(setAllParams c (opVector f c o)).1, by simp [binop, hc1, h1], ?_, ?_⟩
  · -- flags are preserved: blanking values does not change the flags
    have hb := setAllParams_blank (α := α)
    have hflag : ∀ (cst : α) (u : Par α),
        (leavesFrom true (blank cst u)).map (·.1) = (leavesFrom true u).map (·.1) := by
      intro cst u
      have hs : ∀ (u : Par α), ∀ up,
          (leavesFrom up (blank cst u)).map (·.1) = (leavesFrom up u).map (·.1) := by
        intro u
        induction u using Par.rec (motive_2 := fun u => ∀ up,
          (leavesFromSubs up (blankSubs cst u)).map (·.1) = (leavesFromSubs up u).map (·.1)) with
        | scalar s => intro up; simp [blank, leavesFrom]
        | plist l => intro up; simp [blank, leavesFrom]
        | multi s ih => intro up; simpa [blank, leavesFrom] using ih up
        | nil => rfl
        | cons nm l s rest ih1 ih2 => simp [blankSubs, leavesFromSubs, ih1, ih2]
        | missing nm l rest ih => simp [blankSubs, leavesFromSubs, ih]
      exact hs u true
    rw [← hcl]
    cases hv : leavesFrom true c with
    | nil =>
      have hz : (getAllParams (setAllParams c (opVector f c o)).1).length = 0 := by
        rw [getAllParams_length_setAllParams, getAllParams_eq true c, hv]; rfl
      rw [getAllParams_eq true] at hz
      have : leavesFrom true (setAllParams c (opVector f c o)).1 = [] := by simpa using hz
      simp only [leaves, this, hv]
    | cons x xs =>
      have := hflag x.2 (setAllParams c (opVector f c o)).1
      rw [setAllParams_blank] at this
      have h' := hflag x.2 c
      simp only [leaves, ← this, ← h']
  · have : allValues (setAllParams c (opVector f c o)).1 = opVector f c o := by
      have := getAllParams_eq true (setAllParams c (opVector f c o)).1
      rw [h2] at this
      exact this.symm
    rw [this]
    cases o with
    | obj u =>
      have h2 : getAllParams u = allValues u := getAllParams_eq true u
      simp [opVector, hca, h2]
    | num x => simp [opVector, hca]

end Verif.Params
