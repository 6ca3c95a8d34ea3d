import Verif.Fpfit.Recover

/-!
# Forced photometry of images with known truth (C148): the log-likelihood as a sum over pixels
-/

namespace Verif.Fpfit

open Verif Patches Forced Linmod Finset

variable {R M : Type}

theorem getD_any (l : List R) (i : Nat) (a b : R) (h : i < l.length) : l.getD i a = l.getD i b := by
  rw [List.getD, List.getD, List.getElem?_eq_getElem h]; rfl

/-- The height and width of an image. -/
def hgt (tims : List (Tim R M)) (i : Nat) : Nat := ((tims[i]?).map (·.data.h)).getD 0
def wid (tims : List (Tim R M)) (i : Nat) : Nat := ((tims[i]?).map (·.data.w)).getD 0

/-- All pixels of all images. -/
def pixels (tims : List (Tim R M)) : Finset (Σ _ : Nat, Σ _ : Nat, Nat) :=
  (range tims.length).sigma (fun i => (range (hgt tims i)).sigma (fun _ => range (wid tims i)))

theorem mem_pixels (tims : List (Tim R M)) (i y x : Nat) :
    (⟨i, y, x⟩ : Σ _ : Nat, Σ _ : Nat, Nat) ∈ pixels tims ↔ ∃ t, tims[i]? = some t ∧ y < t.data.h ∧ x < t.data.w := by
  unfold pixels hgt wid
  simp only [mem_sigma, mem_range]
  constructor
  · rintro ⟨h1, h2, h3⟩
    rw [List.getElem?_eq_getElem h1] at h2 h3
    exact ⟨_, List.getElem?_eq_getElem h1, h2, h3⟩
  · rintro ⟨t, h1, h2, h3⟩
    have hi : i < tims.length := by
      by_contra hc
      rw [List.getElem?_eq_none (by omega)] at h1; cases h1
    rw [h1]
    exact ⟨hi, h2, h3⟩

variable [Field R] [LinearOrder R]

omit [LinearOrder R] in
theorem sumSq_of (A : Arr R) (h w : Nat) (f : Nat → Nat → R) (h1 : A.h = h) (h2 : A.w = w) (h3 : ∀ y x : Nat, y < h → x < w → A.px y x = f y x) :
    sumSq A = ∑ y ∈ range h, ∑ x ∈ range w, f y x * f y x := by
  rw [sumSq_range, h1, h2]
  refine sum_congr rfl (fun y hy => sum_congr rfl (fun x hx => ?_))
  rw [h3 y x (mem_range.1 hy) (mem_range.1 hx)]

theorem chiImages_sum (minsb : R) (cat : List (Source R)) : ∀ (T : List (Tim R M)) (f : Nat → R),
    (∀ (i : Nat) (t : Tim R M), T[i]? = some t → ∃ A, chiImage minsb cat t = .ok A ∧ sumSq A = f i) →
    ∃ As, chiImages minsb cat T = .ok As ∧ chisqOf As = ∑ i ∈ range T.length, f i := by
  intro T
  induction T with
  | nil => intro f _; exact ⟨[], rfl, rfl⟩
  | cons t ts ih =>
    intro f h
    obtain ⟨A, a1, a2⟩ := h 0 t rfl
    obtain ⟨As, b1, b2⟩ := ih (fun i => f (i + 1)) (fun i t' hi => h (i + 1) t' (by rwa [List.getElem?_cons_succ]))
    refine ⟨A :: As, by unfold chiImages; rw [a1, b1], ?_⟩
    have : chisqOf (A :: As) = sumSq A + chisqOf As := by unfold chisqOf; rw [List.map_cons, List.sum_cons]
    rw [this, a2, b2, List.length_cons, sum_range_succ']
    ring

/-- The parameters of a fit as a sequence: fluxes, then sky levels. -/
def theta (n : Nat) (q : St R) (k : Nat) : R := if k < n then q.flux.getD k 0 else q.sky.getD (k - n) 0

/-- The log-likelihood as a function of the parameters and of the pixel values. -/
theorem logLike_sum (minsb : R) (sky : Bool) (tims : List (Tim R M)) (cat : List (Source R)) (hr : ∀ t ∈ tims, Ready minsb cat t)
    (hs : ∀ t ∈ tims, t.ie.h = t.data.h ∧ t.ie.w = t.data.w) :
    ∃ (w c : (Σ _ : Nat, Σ _ : Nat, Nat) → R) (A : (Σ _ : Nat, Σ _ : Nat, Nat) → Nat → R),
      (∀ (i y x : Nat) (t : Tim R M), tims[i]? = some t → w ⟨i, y, x⟩ = t.ie.px y x) ∧
      (∀ (i y x k : Nat) (t : Tim R M), tims[i]? = some t → k < numParams cat →
        A ⟨i, y, x⟩ k = t.scale * valAt x y ((umods t.W t.img minsb cat).getD k none)) ∧
      (sky = false → ∀ π k, ¬ k < numParams cat → A π k = 0) ∧
      ∀ q : St R, q.flux.length = numParams cat → q.sky.length = tims.length →
        (∀ (i y x : Nat) (t : Tim R M), tims[i]? = some t → y < t.data.h → x < t.data.w →
          pixel minsb (after sky tims cat q) i y x =
            c ⟨i, y, x⟩ + ∑ k ∈ range (numParams cat + tims.length), theta (numParams cat) q k * A ⟨i, y, x⟩ k) ∧
        ∀ d, logLike minsb (after sky (withPixels tims d) cat q).1 (after sky (withPixels tims d) cat q).2 =
          .ok (-(1 / 2) * ∑ π ∈ pixels tims,
            resid (range (numParams cat + tims.length)) w (fun π => d π.1 π.2.1 π.2.2) c A (theta (numParams cat) q) π *
            resid (range (numParams cat + tims.length)) w (fun π => d π.1 π.2.1 π.2.2) c A (theta (numParams cat) q) π) := by
  have ex : ∀ i : Nat, ∃ (c : Nat → Nat → R) (g : Nat → Nat → Nat → R),
      (∀ (y x k : Nat) (t : Tim R M), tims[i]? = some t → g k y x = t.scale * valAt x y ((umods t.W t.img minsb cat).getD k none)) ∧ ∀ t : Tim R M, tims[i]? = some t → ∀ (p : List R) (v : R), p.length = numParams cat →
      ∃ B, modelImage t.W { t.img with sky := v } minsb true (setParams cat p) = .ok B ∧ B.h = t.data.h ∧ B.w = t.data.w ∧
        ∀ y x : Nat, y < t.data.h → x < t.data.w → B.px y x = c y x + v + ∑ k ∈ range (numParams cat), p.getD k 0 * g k y x := by
    intro i
    cases hi : tims[i]? with
    | none => exact ⟨fun _ _ => 0, fun _ _ _ => 0, ⟨fun _ _ _ _ h => (by cases h), fun _ h => (by cases h)⟩⟩
    | some t =>
      obtain ⟨c, h⟩ := modelImage_affine t.W t.img minsb cat (hr t (List.mem_of_getElem? hi))
      refine ⟨c, fun k y x => t.scale * valAt x y ((umods t.W t.img minsb cat).getD k none), fun y x k t' ht' => ?_, fun t' ht' => ?_⟩
      · injection ht' with ht'
        rw [← ht']
      injection ht' with ht'
      rw [← ht']
      exact h
  choose c g hg hcg using ex
  obtain ⟨N, hN⟩ : ∃ N, tims.length = N := ⟨_, rfl⟩
  obtain ⟨n, hn⟩ : ∃ n, numParams cat = n := ⟨_, rfl⟩
  refine ⟨fun π => ((tims[π.1]?).map (fun t => t.ie.px π.2.1 π.2.2)).getD 0,
    fun π => c π.1 π.2.1 π.2.2 + (if sky then 0 else ((tims[π.1]?).map (·.sky)).getD 0),
    fun π k => if k < n then g π.1 k π.2.1 π.2.2 else if sky = true ∧ k - n = π.1 then 1 else 0,
    fun i y x t ht => by simp only [ht]; rfl, fun i y x k t ht hk => by dsimp only; rw [if_pos (by omega)]; exact hg i y x k t ht,
    fun h π k hk => by dsimp only; rw [if_neg (by omega), if_neg (by simp [h])], fun q hq hl => ?_⟩
  rw [hN, hn]
  -- the sum over all parameters
  have sumAll : ∀ (i y x : Nat) (t : Tim R M), tims[i]? = some t →
      ∑ k ∈ range (n + N), theta n q k * (if k < n then g i k y x else if sky = true ∧ k - n = i then 1 else 0) =
        (∑ k ∈ range n, q.flux.getD k 0 * g i k y x) + (if sky then q.sky.getD i 0 else 0) := by
    intro i y x t ht
    have hi : i < N := by
      rw [← hN]
      by_contra hc
      rw [List.getElem?_eq_none (by omega)] at ht; cases ht
    rw [sum_range_add]
    congr 1
    · refine sum_congr rfl (fun k hk => ?_)
      have := mem_range.1 hk
      unfold theta
      rw [if_pos this, if_pos this]
    · cases sky with
      | false =>
        refine sum_eq_zero (fun k _ => ?_)
        rw [if_neg (by omega), if_neg (by simp), mul_zero]
      | true =>
        rw [sum_eq_single i]
        · unfold theta
          rw [if_neg (by omega), if_neg (by omega), if_pos (by simp), Nat.add_sub_cancel_left, mul_one]; rfl
        · intro k _ hk
          rw [if_neg (by omega), if_neg (by rw [Nat.add_sub_cancel_left]; tauto), mul_zero]
        · intro h; exact absurd (mem_range.2 hi) h
  -- the images of the tractor after the parameters have been set
  have img : ∀ (d : Nat → Nat → Nat → R) (i : Nat), (after sky (withPixels tims d) cat q).1[i]? =
      (tims[i]?).map (fun t => { t with data := ⟨t.data.h, t.data.w, d i⟩, sky := if sky then q.sky.getD i 0 else t.sky }) := by
    intro d i
    unfold after
    cases sky with
    | false =>
      simp only [Bool.false_eq_true, if_false]
      rw [withPixels_get]
    | true =>
      simp only [if_true]
      rw [setSky_get, withPixels_get]
      cases hi : tims[i]? with
      | none => rfl
      | some t =>
        have hi' : i < q.sky.length := by
          rw [hl]
          by_contra hc
          rw [List.getElem?_eq_none (by omega)] at hi; cases hi
        simp only [Option.map_some, Option.some.injEq]
        rw [getD_any _ _ _ _ hi']
  have model : ∀ (i : Nat) (t : Tim R M), tims[i]? = some t → ∃ B, modelImage t.W { t.img with sky := if sky then q.sky.getD i 0 else t.sky } minsb true (setParams cat q.flux) = .ok B ∧
      B.h = t.data.h ∧ B.w = t.data.w ∧ ∀ y x : Nat, y < t.data.h → x < t.data.w → B.px y x =
        c i y x + (if sky then 0 else ((tims[i]?).map (·.sky)).getD 0) +
        ∑ k ∈ range (n + N), theta n q k * (if k < n then g i k y x else if sky = true ∧ k - n = i then 1 else 0) := by
    intro i t ht
    obtain ⟨B, b1, b2, b3, b4⟩ := hcg i t ht q.flux (if sky then q.sky.getD i 0 else t.sky) hq
    refine ⟨B, b1, b2, b3, fun y x hy hx => ?_⟩
    rw [b4 y x hy hx, sumAll i y x t ht, ht, hn]
    cases sky
    · simp only [Bool.false_eq_true, if_false, Option.map_some, Option.getD_some]; ring
    · simp only [if_true]; ring
  refine ⟨fun i y x t ht hy hx => ?_, fun d => ?_⟩
  · obtain ⟨B, b1, b2, b3, b4⟩ := model i t ht
    have e : (after sky tims cat q).1[i]? = some { t with sky := if sky then q.sky.getD i 0 else t.sky } := by
      unfold after
      cases sky with
      | false => simp only [Bool.false_eq_true, if_false]; rw [ht]
      | true =>
        simp only [if_true]
        rw [setSky_get, ht]
        have hi' : i < q.sky.length := by
          rw [hl]
          by_contra hc
          rw [List.getElem?_eq_none (by omega)] at ht; cases ht
        simp only [Option.map_some, Option.some.injEq]
        rw [getD_any _ _ _ _ hi']
    unfold pixel
    rw [e]
    dsimp only
    have e2 : modelImage t.W (Tim.img { t with sky := if sky then q.sky.getD i 0 else t.sky }) minsb true (after sky tims cat q).2 = .ok B := b1
    rw [e2]
    exact b4 y x hy hx
  · have hT : (after sky (withPixels tims d) cat q).1.length = N := by
      have hlen : ∀ (T : List (Tim R M)) (l : List R), (setSky T l).length = T.length := by
        intro T
        induction T with
        | nil => intro l; rfl
        | cons t ts ih => intro l; rw [setSky, List.length_cons, ih, List.length_cons]
      unfold after
      cases sky
      · simp only [Bool.false_eq_true, if_false]; rw [withPixels_length, hN]
      · simp only [if_true]; rw [hlen, withPixels_length, hN]
    obtain ⟨As, a1, a2⟩ := chiImages_sum minsb (setParams cat q.flux) (after sky (withPixels tims d) cat q).1
      (fun i => ∑ y ∈ range (hgt tims i), ∑ x ∈ range (wid tims i),
        resid (range (n + N)) (fun π : (Σ _ : Nat, Σ _ : Nat, Nat) => ((tims[π.1]?).map (fun t => t.ie.px π.2.1 π.2.2)).getD 0) (fun π => d π.1 π.2.1 π.2.2)
          (fun π => c π.1 π.2.1 π.2.2 + (if sky then 0 else ((tims[π.1]?).map (·.sky)).getD 0))
          (fun π k => if k < n then g π.1 k π.2.1 π.2.2 else if sky = true ∧ k - n = π.1 then 1 else 0) (theta n q) ⟨i, y, x⟩ *
        resid (range (n + N)) (fun π : (Σ _ : Nat, Σ _ : Nat, Nat) => ((tims[π.1]?).map (fun t => t.ie.px π.2.1 π.2.2)).getD 0) (fun π => d π.1 π.2.1 π.2.2)
          (fun π => c π.1 π.2.1 π.2.2 + (if sky then 0 else ((tims[π.1]?).map (·.sky)).getD 0))
          (fun π k => if k < n then g π.1 k π.2.1 π.2.2 else if sky = true ∧ k - n = π.1 then 1 else 0) (theta n q) ⟨i, y, x⟩) (by
        intro i t' hi
        rw [img] at hi
        cases ht : tims[i]? with
        | none => rw [ht] at hi; cases hi
        | some t =>
          rw [ht] at hi
          simp only [Option.map_some, Option.some.injEq] at hi
          obtain ⟨B, b1, b2, b3, b4⟩ := model i t ht
          obtain ⟨h1, h2⟩ := hs t (List.mem_of_getElem? ht)
          have e1 : bc (· - ·) (⟨t.data.h, t.data.w, d i⟩ : Arr R) B = .ok ⟨t.data.h, t.data.w, fun r c => d i r c - B.px r c⟩ := by
            unfold bc bcDim
            rw [b2, b3, if_pos rfl, if_pos rfl]
            dsimp only
            simp only [if_true]
          have e2 : bc (· * ·) (⟨t.data.h, t.data.w, fun r c => d i r c - B.px r c⟩ : Arr R) t.ie =
              .ok ⟨t.data.h, t.data.w, fun r c => (d i r c - B.px r c) * t.ie.px r c⟩ := by
            unfold bc bcDim
            rw [h1, h2, if_pos rfl, if_pos rfl]
            dsimp only
            simp only [if_true]
          refine ⟨⟨t.data.h, t.data.w, fun r c => (d i r c - B.px r c) * t.ie.px r c⟩, ?_, ?_⟩
          · rw [← hi]
            unfold chiImage
            have b1' : modelImage t.W (Tim.img { t with data := ⟨t.data.h, t.data.w, d i⟩, sky := if sky then q.sky.getD i 0 else t.sky }) minsb true
                (setParams cat q.flux) = .ok B := b1
            dsimp only
            rw [b1']
            dsimp only
            rw [e1]
            exact e2
          · have eh : hgt tims i = t.data.h := by unfold hgt; rw [ht]; rfl
            have ew : wid tims i = t.data.w := by unfold wid; rw [ht]; rfl
            rw [eh, ew]
            refine sumSq_of _ _ _ (fun y x => resid (range (n + N)) (fun π : (Σ _ : Nat, Σ _ : Nat, Nat) => ((tims[π.1]?).map (fun t => t.ie.px π.2.1 π.2.2)).getD 0) (fun π => d π.1 π.2.1 π.2.2)
              (fun π => c π.1 π.2.1 π.2.2 + (if sky then 0 else ((tims[π.1]?).map (·.sky)).getD 0))
              (fun π k => if k < n then g π.1 k π.2.1 π.2.2 else if sky = true ∧ k - n = π.1 then 1 else 0) (theta n q) ⟨i, y, x⟩) rfl rfl (fun y x hy hx => ?_)
            dsimp only
            rw [b4 y x hy hx]
            unfold resid
            dsimp only
            simp only [ht, Option.map_some, Option.getD_some]
            rw [mul_comm])
    unfold logLike
    have a1' : chiImages minsb (after sky (withPixels tims d) cat q).2 (after sky (withPixels tims d) cat q).1 = .ok As := a1
    rw [a1']
    dsimp only
    rw [a2, hT]
    unfold pixels
    rw [sum_sigma, hN]
    congr 2
    refine sum_congr rfl (fun i _ => ?_)
    rw [sum_sigma]

end Verif.Fpfit
