import Verif.Fpfit.DirLemmas2

/-!
# Lemmas for C138: one round of the fit, and moves in the space of fluxes and sky levels
-/

namespace Verif.Fpfit

open Verif Patches Forced Linmod

variable {R M : Type} [Field R] [LinearOrder R]

/-- One round without a minimum flux, the sky fitted or not. -/
theorem forced_round [IsStrictOrderedRing R] (c : Cfg R) (o : Obj R) (dir : Nat → St R → R → Option (List R)) (fuel : Nat) (s : St R) (X : List R) (x0 x1 : R)
    (hm : c.minFlux = none) (hpr : c.priors = false) (hro : c.rois = false) (hj : c.justims0 = false)
    (hd : dir 0 s c.damp = some X) (hX : X ≠ []) (hl : (fluxOf c.sky s.sky.length X).length = s.flux.length)
    (h0 : o.chisq s.flux s.sky = .ok x0)
    (h1 : o.chisq (List.zipWith (· + ·) s.flux (fluxOf c.sky s.sky.length X))
      (if c.sky then List.zipWith (· + ·) s.sky (skyOf c.sky s.sky.length X) else s.sky) = .ok x1) :
    ∃ s', forced c o dir (fuel + 1) s = (s', some (.ok ())) ∧
      (s'.flux = List.zipWith (· + ·) s.flux (fluxOf c.sky s.sky.length X) ∧
        s'.sky = (if c.sky then List.zipWith (· + ·) s.sky (skyOf c.sky s.sky.length X) else s.sky) ∨
       s'.flux = s.flux ∧ s'.sky = s.sky ∧ ¬ (-(1 / 2) * x0 < -(1 / 2) * x1)) := by
  have hc : ∀ l : List R, l.map (clampOne c.minFlux) = l := by
    intro l; rw [hm]; exact List.map_id l
  have hp : ∀ (pa : List R) (q : Option (List R)) x, o.chisq pa (q.getD s.sky) = .ok x →
      lnpFor c o pa q s = ({ s with sky := q.getD s.sky }, .ok (.fin (-(1 / 2) * x))) := by
    intro pa q x hx
    unfold lnpFor
    cases q with
    | none =>
      simp only [Option.getD_none] at hx
      simp only [hpr, hc, hx, Bool.false_and, Bool.false_eq_true, if_false, Num.add, zero_add, Option.getD_none]
    | some q =>
      simp only [Option.getD_some] at hx
      simp only [hpr, hc, hx, Bool.false_and, Bool.false_eq_true, if_false, Num.add, zero_add, Option.getD_some]
  have hstep : ∀ a b : List R, stepTo a b 1 = List.zipWith (· + ·) a b := by
    intro a b; unfold stepTo; simp only [one_mul]
  unfold forced
  rw [hp _ none _ h0]
  simp only [Option.getD_none, Num.isFinite, Bool.not_true, Bool.false_eq_true, if_false, hj]
  unfold loop Forced.round
  simp only [hro, Bool.false_eq_true, if_false, hd]
  cases X with
  | nil => exact (hX rfl).elim
  | cons a X =>
    have e1 : (if c.sky = true then List.drop s.sky.length (a :: X) else a :: X) = fluxOf c.sky s.sky.length (a :: X) := rfl
    have e2 : (if c.sky = true then List.take s.sky.length (a :: X) else []) = skyOf c.sky s.sky.length (a :: X) := rfl
    rw [e1, e2]
    generalize fluxOf c.sky s.sky.length (a :: X) = F at *
    generalize skyOf c.sky s.sky.length (a :: X) = S at *
    rw [if_neg (by simp [hl])]
    have hfull : fullOK c.minFlux s.flux F = true := by rw [hm]; rfl
    rw [hfull]
    have hpar : (if c.sky then some (stepTo s.sky S 1) else none).getD s.sky = (if c.sky then List.zipWith (· + ·) s.sky S else s.sky) := by
      cases c.sky
      · rfl
      · exact hstep _ _
    have hsearch : search c o s.flux F s.sky S [1] (.fin (-(1 / 2) * x0)) none 0 s =
        ({ s with sky := if c.sky then List.zipWith (· + ·) s.sky S else s.sky },
          .ok (if -(1 / 2) * x0 < -(1 / 2) * x1 ∧ ¬ -(1 / 2) * x1 < -(1 / 2) * x0 + -1 then (.fin (-(1 / 2) * x1), some 1, 1)
          else (.fin (-(1 / 2) * x0), none, 1))) := by
      unfold search
      rw [hstep, hp _ (if c.sky then some (stepTo s.sky S 1) else none) x1 (by rw [hpar]; exact h1), hpar]
      generalize (if c.sky then List.zipWith (· + ·) s.sky S else s.sky) = SK
      simp only [Num.lt, Num.sub, Num.add, Num.neg, Num.isFinite, Bool.not_true, Bool.false_eq_true, if_false, decide_eq_true_eq]
      by_cases g1 : -(1 / 2) * x1 < -(1 / 2) * x0 + -1
      · rw [if_pos g1, if_neg (fun h => h.2 g1)]
      · rw [if_neg g1]
        by_cases g2 : -(1 / 2) * x0 < -(1 / 2) * x1
        · rw [if_pos g2, if_pos ⟨g2, g1⟩]; rfl
        · rw [if_neg g2, if_neg (fun h => g2 h.1)]; rfl
    simp only [if_true, hsearch]
    by_cases g : -(1 / 2) * x0 < -(1 / 2) * x1 ∧ ¬ -(1 / 2) * x1 < -(1 / 2) * x0 + -1
    · rw [if_pos g]
      dsimp only
      rw [Bool.or_true, if_pos rfl]
      refine ⟨_, rfl, .inl ?_⟩
      unfold accept
      dsimp only
      rw [hc, hstep, hstep]
      cases c.sky
      · exact ⟨rfl, rfl⟩
      · exact ⟨rfl, rfl⟩
    · rw [if_neg g]
      dsimp only
      rw [Bool.or_true, if_pos rfl]
      refine ⟨_, rfl, .inr ⟨?_, ?_, fun h => g ⟨h, fun h' => ?_⟩⟩⟩
      · unfold accept
        cases c.sky <;> rfl
      · unfold accept
        cases c.sky <;> rfl
      · linarith

/-- Without a direction nothing happens. -/
theorem forced_none (c : Cfg R) (o : Obj R) (dir : Nat → St R → R → Option (List R)) (fuel : Nat) (s : St R) (x0 : R)
    (hm : c.minFlux = none) (hpr : c.priors = false) (hro : c.rois = false) (hj : c.justims0 = false)
    (hd : dir 0 s c.damp = none ∨ dir 0 s c.damp = some []) (h0 : o.chisq s.flux s.sky = .ok x0) :
    forced c o dir (fuel + 1) s = (s, some (.ok ())) := by
  have hp : lnpFor c o s.flux none s = (s, .ok (.fin (-(1 / 2) * x0))) := by
    unfold lnpFor
    have hc : ∀ l : List R, l.map (clampOne c.minFlux) = l := by
      intro l; rw [hm]; exact List.map_id l
    simp only [hpr, hc, h0, Bool.false_and, Bool.false_eq_true, if_false, Num.add, zero_add]
  unfold forced
  rw [hp]
  simp only [Num.isFinite, Bool.not_true, Bool.false_eq_true, if_false, hj]
  unfold loop Forced.round
  simp only [hro, Bool.false_eq_true, if_false]
  rcases hd with hd | hd <;> rw [hd]

/-! ### Moves -/

omit [LinearOrder R] in
theorem getD_zipWith_add (a b : List R) (h : b.length = a.length) (k : Nat) :
    (List.zipWith (· + ·) a b).getD k 0 = a.getD k 0 + b.getD k 0 := by
  rw [List.getD_eq_getElem?_getD, List.getD_eq_getElem?_getD, List.getD_eq_getElem?_getD, List.getElem?_zipWith]
  by_cases hk : k < a.length
  · rw [List.getElem?_eq_getElem hk, List.getElem?_eq_getElem (by omega)]; rfl
  · rw [List.getElem?_eq_none (by omega), List.getElem?_eq_none (by omega)]; simp

/-- The step along `X`. -/
theorem moved_step (minsb : R) (sky : Bool) (tims : List (Tim R M)) (cat : List (Source R)) (X : List R)
    (hX : X.length = (derivs minsb sky tims cat).length) :
    Moved sky tims cat X (List.zipWith (· + ·) (getParams cat) (fluxOf sky tims.length X))
      (if sky then List.zipWith (· + ·) (tims.map (·.sky)) (skyOf sky tims.length X) else tims.map (·.sky)) := by
  rw [derivs_length] at hX
  have hf : (fluxOf sky tims.length X).length = numParams cat := by
    unfold fluxOf
    cases sky
    · simpa using hX
    · simp only [if_true] at hX ⊢
      rw [List.length_drop]; omega
  refine ⟨?_, ?_, ?_⟩
  · rw [List.length_zipWith, getParams_length, hf, min_self]
  · intro k
    exact getD_zipWith_add _ _ (by rw [hf, getParams_length]) k
  · intro h i t ht
    subst h
    simp only [if_true] at hX ⊢
    have hi : i < tims.length := by
      by_contra hc
      rw [List.getElem?_eq_none (by omega)] at ht; cases ht
    have e : (skyOf true tims.length X).length = tims.length := by
      unfold skyOf; simp only [if_true]; rw [List.length_take]; omega
    rw [List.getD_eq_getElem?_getD, List.getElem?_zipWith, List.getElem?_map, ht, List.getD_eq_getElem?_getD,
      List.getElem?_eq_getElem (by omega)]
    rfl

/-- Any fluxes and sky levels are reached. -/
theorem moved_any (minsb : R) (sky : Bool) (tims : List (Tim R M)) (cat : List (Source R)) (p l : List R)
    (hp : p.length = numParams cat) (hl : l.length = tims.length) :
    ∃ X, X.length = (derivs minsb sky tims cat).length ∧ Moved sky tims cat X p l := by
  have hz : ∀ a b : List R, b.length = a.length → List.zipWith (· + ·) a (List.zipWith (· - ·) b a) = b := by
    intro a
    induction a with
    | nil => intro b h; rw [List.length_eq_zero_iff.1 h]; rfl
    | cons x a ih =>
      intro b h
      cases b with
      | nil => simp at h
      | cons y b =>
        simp only [List.zipWith_cons_cons]
        rw [ih b (by simpa using h)]
        congr 1
        ring
  have hD : (List.zipWith (· - ·) p (getParams cat)).length = numParams cat := by
    rw [List.length_zipWith, getParams_length, hp, min_self]
  have hS : (List.zipWith (· - ·) l (tims.map (·.sky))).length = tims.length := by
    rw [List.length_zipWith, List.length_map, hl, min_self]
  have key : ∀ X, X.length = (derivs minsb sky tims cat).length → fluxOf sky tims.length X = List.zipWith (· - ·) p (getParams cat) →
      (sky = true → skyOf sky tims.length X = List.zipWith (· - ·) l (tims.map (·.sky))) → Moved sky tims cat X p l := by
    intro X h1 h2 h3
    have h := moved_step minsb sky tims cat X h1
    rw [h2, hz _ _ (by rw [hp, getParams_length])] at h
    refine ⟨h.len, h.flux, fun hs => ?_⟩
    have h4 := h.level hs
    rw [h3 hs, if_pos hs, hz _ _ (by rw [hl, List.length_map])] at h4
    rw [h3 hs]; exact h4
  cases sky
  · refine ⟨List.zipWith (· - ·) p (getParams cat), ?_, ?_⟩
    · rw [derivs_length, hD]; simp
    · refine key _ (by rw [derivs_length, hD]; simp) rfl (by simp)
  · refine ⟨List.zipWith (· - ·) l (tims.map (·.sky)) ++ List.zipWith (· - ·) p (getParams cat), ?_, ?_⟩
    · rw [derivs_length, List.length_append, hD, hS]; simp
    · refine key _ (by rw [derivs_length, List.length_append, hD, hS]; simp) ?_ (fun _ => ?_)
      · unfold fluxOf; simp only [if_true]; rw [← hS, List.drop_left]
      · unfold skyOf; simp only [if_true]; rw [← hS, List.take_left]

/-- The images are as `getUpdateDirection` needs them. -/
theorem images_ok (minsb : R) (sky : Bool) (tims : List (Tim R M)) (cat : List (Source R)) (hr : ∀ t ∈ tims, Ready minsb cat t)
    (hs : ∀ t ∈ tims, t.ie.h = t.data.h ∧ t.ie.w = t.data.w) (hw : ∀ t ∈ tims, t.data.w * t.data.h < 2 ^ 31) (chis : List (Arr R))
    (hc : fitChis minsb sky cat (getParams cat) tims (tims.map (·.sky)) = .ok chis) (ds : Lsq.Derivs R) :
    Lsq.ImagesOK (lsqImgs tims chis) ds := by
  intro i _
  obtain ⟨cs, z1, z2, z3⟩ := fitChis_ok minsb sky cat (getParams cat) (getParams_length cat) tims (tims.map (·.sky)) hr hs
  rw [hc] at z1
  injection z1 with z1
  subst z1
  by_cases hi : i < tims.length
  · have ht : tims[i]? = some tims[i] := List.getElem?_eq_getElem hi
    have hmem : tims[i] ∈ tims := List.getElem_mem hi
    obtain ⟨A0, g1, g2⟩ := z3 i _ ht
    obtain ⟨c0, hpx⟩ := fitChi_px minsb sky cat tims[i] (hr _ hmem) (hs _ hmem).1 (hs _ hmem).2
    obtain ⟨B0, b1, b2, b3, b4⟩ := hpx (getParams cat) ((tims.map (·.sky)).getD i tims[i].sky) (getParams_length cat)
    rw [g2] at b1
    injection b1 with b1
    subst b1
    have eI : lsqImgs tims chis i = ⟨tims[i].data.h, tims[i].data.w, tims[i].ie, A0⟩ := by
      unfold lsqImgs; rw [ht, g1]
    rw [eI]
    exact ⟨(hs _ hmem).1, (hs _ hmem).2, b2, b3, hw _ hmem⟩
  · have eI : lsqImgs tims chis i = ⟨0, 0, Arr.zeros 0 0, Arr.zeros 0 0⟩ := by
      unfold lsqImgs; rw [List.getElem?_eq_none (by omega)]
    rw [eI]
    exact ⟨rfl, rfl, rfl, rfl, by norm_num⟩

end Verif.Fpfit
