import Verif.Fpfit.Model
import Verif.Linmod.Props
import Verif.Forced.Props
import Mathlib.Algebra.BigOperators.Group.Finset.Basic
import Mathlib.Algebra.BigOperators.Ring.Finset

namespace Verif.Fpfit

open Verif Patches Forced Linmod

variable {R M : Type}

/-! ### Arrays with the same pixels -/

/-- Same shape, same pixels. -/
def Same (A B : Arr R) : Prop := A.h = B.h ∧ A.w = B.w ∧ ∀ y x : Nat, y < A.h → x < A.w → A.px y x = B.px y x

theorem Same.ravel {A B : Arr R} (h : Same A B) : A.ravel = B.ravel := by
  obtain ⟨h1, h2, h3⟩ := h
  unfold Arr.ravel
  rw [← h1, ← h2]
  simp only [List.flatMap_def]
  congr 1
  refine List.map_congr_left (fun r hr => List.map_congr_left (fun c hc => ?_))
  exact h3 r c (List.mem_range.1 hr) (List.mem_range.1 hc)

/-- Two results that are the same to whoever reads the pixels. -/
def SameE : Except PyErr (Arr R) → Except PyErr (Arr R) → Prop
  | .ok A, .ok B => Same A B
  | .error e, .error f => e = f
  | _, _ => False

theorem bcDim_cases {a b h : Nat} (e : bcDim a b = some h) : (a = h ∨ a = 1) ∧ (b = h ∨ b = 1) := by
  unfold bcDim at e
  by_cases h1 : a = b
  · rw [if_pos h1] at e; cases e; exact ⟨.inl rfl, .inl h1.symm⟩
  · rw [if_neg h1] at e
    by_cases h2 : a = 1
    · rw [if_pos h2] at e; cases e; exact ⟨.inr h2, .inl rfl⟩
    · rw [if_neg h2] at e
      by_cases h3 : b = 1
      · rw [if_pos h3] at e; cases e; exact ⟨.inl rfl, .inr h3⟩
      · rw [if_neg h3] at e; cases e

theorem idx_lt {a h r : Nat} (hc : a = h ∨ a = 1) (hr : r < h) : (if a = h then r else 0) < a := by
  by_cases e : a = h
  · rw [if_pos e]; omega
  · rw [if_neg e]; omega

theorem bc_same (f : R → R → R) {A A' B B' : Arr R} (hA : Same A A') (hB : Same B B') : SameE (bc f A B) (bc f A' B') := by
  obtain ⟨a1, a2, a3⟩ := hA
  obtain ⟨b1, b2, b3⟩ := hB
  unfold bc
  rw [← a1, ← a2, ← b1, ← b2]
  cases e1 : bcDim A.h B.h with
  | none => rfl
  | some h =>
    cases e2 : bcDim A.w B.w with
    | none => rfl
    | some w =>
      obtain ⟨c1, c2⟩ := bcDim_cases e1
      obtain ⟨c3, c4⟩ := bcDim_cases e2
      refine ⟨rfl, rfl, fun y x hy hx => ?_⟩
      change f _ _ = f _ _
      rw [a3 _ _ (idx_lt c1 hy) (idx_lt c3 hx), b3 _ _ (idx_lt c2 hy) (idx_lt c4 hx)]

theorem Same.refl (A : Arr R) : Same A A := ⟨rfl, rfl, fun _ _ _ _ => rfl⟩

variable [Field R]

theorem sumSq_same {A B : Arr R} (h : Same A B) : sumSq A = sumSq B := by unfold sumSq; rw [h.ravel]

variable [LinearOrder R]

/-- What the catalog must satisfy for every image (C135). -/
def Ready (minsb : R) (cat : List (Source R)) (t : Tim R M) : Prop := ∀ s ∈ cat, s.thawed = true → Fit t.W t.img minsb s

theorem fit_sky {W : World R M} {img : Img R} {minsb : R} {s : Source R} (v : R) (h : Fit W img minsb s) : Fit W { img with sky := v } minsb s :=
  ⟨h.bands, h.seen, h.same⟩

theorem modelParts_sky (W : World R M) (img : Img R) (id : Nat) (minsb v : R) : ∀ (bs : List (Bright R)) (k : Nat),
    modelParts W { img with sky := v } id minsb k bs = modelParts W img id minsb k bs := by
  intro bs
  induction bs with
  | nil => intro k; rfl
  | cons b bs ih => intro k; rw [modelParts, modelParts, ih]; rfl

theorem prepare_sky (W : World R M) (img : Img R) (minsb v : R) (cat : List (Source R)) :
    prepare W { img with sky := v } minsb true cat = prepare W img minsb true cat := by
  have e1 : umods W { img with sky := v } minsb cat = umods W img minsb cat := rfl
  have e2 : modelOf W { img with sky := v } minsb = modelOf W img minsb := by
    funext s
    unfold modelOf
    rw [modelParts_sky]; rfl
  unfold prepare modelImage
  rw [e1, e2]; rfl

/-- The chi image that is fitted is that of the Tractor. -/
theorem fitChi_same (minsb : R) (sky : Bool) (cat : List (Source R)) (p : List R) (t : Tim R M) (v : R) (hr : Ready minsb cat t)
    (hp : p.length = numParams cat) :
    SameE (fitChi minsb sky cat p t v) (chiImage minsb (setParams cat p) (if sky then { t with sky := v } else t)) := by
  have hmod : ∃ A B u m, prepare t.W t.img minsb sky cat = .ok (u, m) ∧
      addModels none t.scale (p.zip u) (if sky then addSky { t.img with sky := v } m else m) = .ok A ∧
      modelImage t.W (if sky then { t with sky := v } else t : Tim R M).img minsb true (setParams cat p) = .ok B ∧ Same A B := by
    cases sky with
    | false =>
      obtain ⟨A, B, h1, h2, h3, h4, h5⟩ := fitted_eq t.W t.img minsb false cat p hr hp
      unfold fitted at h1
      cases hq : prepare t.W t.img minsb false cat with
      | error e => rw [hq] at h1; cases h1
      | ok um =>
        obtain ⟨u, m⟩ := um
        rw [hq] at h1
        exact ⟨A, B, u, m, rfl, h1, h2, h3, h4, h5⟩
    | true =>
      obtain ⟨A, B, h1, h2, h3, h4, h5⟩ := fitted_eq t.W { t.img with sky := v } minsb true cat p (fun s hs ht => fit_sky v (hr s hs ht)) hp
      unfold fitted at h1
      have e : prepare t.W { t.img with sky := v } minsb true cat = prepare t.W t.img minsb true cat := prepare_sky ..
      rw [e] at h1
      cases hq : prepare t.W t.img minsb true cat with
      | error e => rw [hq] at h1; cases h1
      | ok um =>
        obtain ⟨u, m⟩ := um
        rw [hq] at h1
        exact ⟨A, B, u, m, rfl, h1, h2, h3, h4, h5⟩
  obtain ⟨A, B, u, m, h1, h2, h3, h4⟩ := hmod
  have eW : (if sky then { t with sky := v } else t : Tim R M).W = t.W := by cases sky <;> rfl
  have ed : (if sky then { t with sky := v } else t : Tim R M).data = t.data := by cases sky <;> rfl
  have ei : (if sky then { t with sky := v } else t : Tim R M).ie = t.ie := by cases sky <;> rfl
  unfold fitChi chiImage
  rw [h1, eW, h3, ed, ei]
  dsimp only
  unfold getim
  rw [h2]
  dsimp only
  have hb := bc_same (fun a b : R => a - b) (Same.refl t.data) h4
  cases e1 : bc (· - ·) t.data A with
  | error e =>
    rw [e1] at hb
    cases e2 : bc (· - ·) t.data B with
    | error f => rw [e2] at hb; exact hb
    | ok D => rw [e2] at hb; exact hb.elim
  | ok C =>
    rw [e1] at hb
    cases e2 : bc (· - ·) t.data B with
    | error f => rw [e2] at hb; exact hb.elim
    | ok D =>
      rw [e2] at hb
      have hc := bc_same (fun a b : R => a * b) hb (Same.refl t.ie)
      dsimp only
      cases e3 : bc (· * ·) C t.ie with
      | error e => rw [e3] at hc; exact hc
      | ok C' => rw [e3] at hc; exact hc

/-- All images. -/
theorem fitChis_same (minsb : R) (sky : Bool) (cat : List (Source R)) (p : List R) (hp : p.length = numParams cat) :
    ∀ (tims : List (Tim R M)) (l : List R), (∀ t ∈ tims, Ready minsb cat t) →
      match fitChis minsb sky cat p tims l, chiImages minsb (setParams cat p) (if sky then setSky tims l else tims) with
      | .ok cs, .ok ds => chisqOf cs = chisqOf ds
      | .error e, .error f => e = f
      | _, _ => False := by
  intro tims
  induction tims with
  | nil => intro l _; cases sky <;> rfl
  | cons t ts ih =>
    intro l hr
    have h1 := fitChi_same minsb sky cat p t (l.headD t.sky) (hr t (List.mem_cons_self ..)) hp
    have h2 := ih l.tail (fun t' ht' => hr t' (List.mem_cons_of_mem _ ht'))
    have e : (if sky then setSky (t :: ts) l else t :: ts) =
        (if sky then { t with sky := l.headD t.sky } else t) :: (if sky then setSky ts l.tail else ts) := by cases sky <;> rfl
    rw [e]
    unfold fitChis chiImages
    generalize fitChi minsb sky cat p t (l.headD t.sky) = a at *
    generalize chiImage minsb (setParams cat p) (if sky then { t with sky := l.headD t.sky } else t) = b at *
    generalize fitChis minsb sky cat p ts l.tail = as at *
    generalize chiImages minsb (setParams cat p) (if sky then setSky ts l.tail else ts) = bs at *
    cases a with
    | error e =>
      cases b with
      | error f => exact h1
      | ok B => exact h1.elim
    | ok A =>
      cases b with
      | error f => exact h1.elim
      | ok B =>
        dsimp only
        cases as with
        | error e =>
          cases bs with
          | error f => exact h2
          | ok _ => exact h2.elim
        | ok as =>
          cases bs with
          | error f => exact h2.elim
          | ok bs =>
            dsimp only at h2 ⊢
            unfold chisqOf at h2 ⊢
            rw [List.map_cons, List.map_cons, List.sum_cons, List.sum_cons, h2, sumSq_same h1]

/-- The objective function is the log-likelihood of the Tractor after the parameters have been set. -/
theorem objective_like (minsb : R) (sky : Bool) (tims : List (Tim R M)) (cat : List (Source R)) (hr : ∀ t ∈ tims, Ready minsb cat t)
    (p l : List R) (hp : p.length = numParams cat) :
    logLike minsb (if sky then setSky tims l else tims) (setParams cat p) =
      ((objective minsb sky tims cat).chisq p l).map (fun x => -(1 / 2) * x) := by
  have h := fitChis_same minsb sky cat p hp tims l hr
  unfold logLike objective
  dsimp only
  generalize fitChis minsb sky cat p tims l = a at *
  generalize chiImages minsb (setParams cat p) (if sky then setSky tims l else tims) = b at *
  cases a with
  | error e =>
    cases b with
    | error f => dsimp only at h; rw [h]; rfl
    | ok _ => exact h.elim
  | ok A =>
    cases b with
    | error f => exact h.elim
    | ok B => dsimp only at h; dsimp only; rw [← h]; rfl

/-! ### The beginning -/

omit [LinearOrder R] [Field R] in
theorem setSky_self : ∀ (tims : List (Tim R M)), setSky tims (tims.map (·.sky)) = tims := by
  intro tims
  induction tims with
  | nil => rfl
  | cons t ts ih => change ({ t with sky := t.sky } :: setSky ts (ts.map (·.sky))) = _; rw [ih]

omit [LinearOrder R] [Field R] in
theorem setBands_self (flux : String → R) (l : List R) : ∀ (bs : List String), setBands flux bs (bs.map flux ++ l) = (flux, l) := by
  intro bs
  induction bs with
  | nil => rfl
  | cons b bs ih =>
    change setBands (fun c => if c = b then flux b else flux c) bs (bs.map flux ++ l) = _
    have e : (fun c => if c = b then flux b else flux c) = flux := by
      funext c
      by_cases h : c = b
      · rw [if_pos h, h]
      · rw [if_neg h]
    rw [e, ih]

omit [LinearOrder R] [Field R] in
theorem setParts_self (l : List R) : ∀ (bs : List (Bright R)), setParts bs ((bs.map (fun b => b.thawed.map b.flux)).flatten ++ l) = (bs, l) := by
  intro bs
  induction bs with
  | nil => rfl
  | cons b bs ih =>
    rw [List.map_cons, List.flatten_cons, List.append_assoc, setParts, setBands_self]
    dsimp only
    rw [ih]

omit [LinearOrder R] [Field R] in
theorem setParams_self : ∀ (cat : List (Source R)), setParams cat (getParams cat) = cat := by
  intro cat
  induction cat with
  | nil => rfl
  | cons s cat ih =>
    rw [setParams]
    cases ht : s.thawed with
    | false =>
      have e : getParams (s :: cat) = getParams cat := by unfold getParams; rw [List.filter_cons_of_neg (by simp [ht])]
      rw [if_neg (by simp), e, ih]
    | true =>
      have e : getParams (s :: cat) = (s.parts.map (fun b => b.thawed.map b.flux)).flatten ++ getParams cat := by
        unfold getParams; rw [List.filter_cons_of_pos (by simp [ht])]; rfl
      rw [if_pos rfl, e, setParts_self]
      dsimp only
      rw [ih, ← ht]

omit [LinearOrder R] [Field R] in
theorem getParams_length (cat : List (Source R)) : (getParams cat).length = numParams cat := by
  unfold getParams numParams
  rw [List.length_flatten, List.map_map]
  congr 1
  refine List.map_congr_left (fun s _ => ?_)
  change ((s.parts.map (fun b => b.thawed.map b.flux)).flatten).length = _
  rw [List.length_flatten, List.map_map]
  congr 1
  exact List.map_congr_left (fun b _ => by simp)

/-! ### The number of fluxes -/

omit [LinearOrder R] in
theorem stepTo_length (p0 X : List R) (a : R) (h : X.length = p0.length) : (stepTo p0 X a).length = p0.length := by
  unfold stepTo; rw [List.length_zipWith, h, min_self]

theorem round_length (c : Cfg R) (o : Obj R) (dir : St R → R → Option (List R)) (lnp0 : Num R) (damping damp0 : R) (s s' : St R)
    (out : Out R) (h : round c o dir lnp0 damping damp0 s = (s', .ok out)) : s'.flux.length = s.flux.length := by
  rcases round_ok c o dir lnp0 damping damp0 s s' out h with ⟨_, rfl, _⟩ | ⟨X, s2, lb, ab, al, _, _, hl, hsr, rfl, _⟩
  · unfold handed; by_cases hr : c.rois = true
    · rw [if_pos hr]
    · rw [if_neg hr]
  · have key := (search_ok c o s.flux (dirFlux c s X) s.sky (dirSky c s X) s.flux s.sky s.real
      (fun _ _ => True) (by intros; trivial) lnp0 1 False
      (if fullOK c.minFlux s.flux (dirFlux c s X) then [1] else c.alphas) lnp0 none 0 s
      rfl (fun _ => rfl) rfl (.inl ⟨rfl, rfl⟩) (fun h => h.elim) (fun h => h.elim)).1
    rw [hsr] at key
    unfold accept
    cases ab with
    | none =>
      dsimp only at key ⊢
      by_cases hs : c.sky = true
      · rw [if_pos hs]; rw [key]
      · rw [if_neg hs]; rw [key]
    | some a =>
      dsimp only
      by_cases hs : c.sky = true
      · rw [if_pos hs]; rw [List.length_map, stepTo_length _ _ _ hl]
      · rw [if_neg hs]; rw [List.length_map, stepTo_length _ _ _ hl]

theorem loop_length (c : Cfg R) (o : Obj R) (dir : Nat → St R → R → Option (List R)) : ∀ (fuel n : Nat) (lnp0 : Num R)
    (damping damp0 : R) (s s' : St R), loop c o dir fuel n lnp0 damping damp0 s = (s', some (.ok ())) → s'.flux.length = s.flux.length := by
  intro fuel
  induction fuel with
  | zero => intro n lnp0 damping damp0 s s' h; simp [loop] at h
  | succ fuel ih =>
    intro n lnp0 damping damp0 s s' h
    unfold loop at h
    cases hr : round c o (dir n) lnp0 damping damp0 s with
    | mk s1 r =>
      rw [hr] at h
      cases r with
      | error e => simp at h
      | ok out =>
        have hl := round_length c o (dir n) lnp0 damping damp0 s s1 out hr
        cases out with
        | done =>
          simp only [Prod.mk.injEq] at h
          rw [← h.1, hl]
        | again l d d0 => exact (ih (n + 1) l d d0 s1 s' h).trans hl

theorem forced_length (c : Cfg R) (o : Obj R) (dir : Nat → St R → R → Option (List R)) (fuel : Nat) (s s' : St R)
    (h : forced c o dir fuel s = (s', some (.ok ()))) : s'.flux.length = s.flux.length := by
  unfold forced at h
  have hst := lnpFor_state c o s.flux none s
  cases hr : lnpFor c o s.flux none s with
  | mk s1 r =>
    rw [hr] at h hst
    have e : s1 = s := hst
    subst e
    cases r with
    | error e => simp at h
    | ok l =>
      simp only at h
      split at h
      · simp at h
      · split at h
        · simp only [Prod.mk.injEq] at h
          rw [← h.1]
        · exact loop_length c o dir fuel 0 l c.damp (1 / 1000) s1 s' h

/-- If it ends normally, the first log-probability is finite. -/
theorem forced_first (c : Cfg R) (o : Obj R) (hc : c.priors = false) (dir : Nat → St R → R → Option (List R)) (fuel : Nat) (s s' : St R)
    (h : forced c o dir fuel s = (s', some (.ok ()))) : ∃ x, o.chisq (s.flux.map (clampOne c.minFlux)) s.sky = .ok x := by
  unfold forced lnpFor at h
  dsimp only at h
  rw [hc] at h
  cases hx : o.chisq (s.flux.map (clampOne c.minFlux)) s.sky with
  | ok x => exact ⟨x, rfl⟩
  | error e => rw [hx] at h; simp at h

end Verif.Fpfit
