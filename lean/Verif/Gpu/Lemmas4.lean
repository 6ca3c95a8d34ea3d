import Verif.Gpu.Lemmas3
import Verif.Gpu.Spec

namespace Verif.Gpu

open Verif Verif.Psf

variable {R : Type} [Field R] [LinearOrder R]

theorem setupOne_ok (sz : Nat) (hs : sz % 2 = 0) (t : Tim R) (hf : Fits t) (ipx ipy : Int) (m : Int)
    (hsz : 2 * (5 + m) ≤ sz) (hm : ∀ v ∈ reach t ipx ipy, v ≤ m) :
    ∃ p, setupOne sz t ipx ipy = .ok p ∧ Layout t sz ipx ipy p := by
  obtain ⟨hsup, hx, hy, hie⟩ := hf
  have m1 : 1 + ipx - t.x0 ≤ m := hm _ (by simp [reach])
  have m2 : 1 + t.x1 - ipx ≤ m := hm _ (by simp [reach])
  have m3 : 1 + ipy - t.y0 ≤ m := hm _ (by simp [reach])
  have m4 : 1 + t.y1 - ipy ≤ m := hm _ (by simp [reach])
  obtain ⟨S, eS, s1, s2, s3⟩ := padPsf_ok sz hs t.psf
  obtain ⟨A, eA, a1, a2, a3⟩ := padPix_ok sz t.pix t.x0 t.x1 t.y0 t.y1 ((sz / 2 : Nat) - ipx) ((sz / 2 : Nat) - ipy)
    ⟨hx.1, by omega, hx.2.2⟩ ⟨hy.1, by omega, hy.2.2⟩ (by omega) (by omega)
  obtain ⟨B, eB, b1, b2, b3⟩ := padPix_ok sz t.ie t.x0 t.x1 t.y0 t.y1 ((sz / 2 : Nat) - ipx) ((sz / 2 : Nat) - ipy)
    ⟨hx.1, by omega, by omega⟩ ⟨hy.1, by omega, by omega⟩ (by omega) (by omega)
  refine ⟨⟨S, A, B, ipx, ipy, (limits sz (hotCols B)).1, (limits sz (hotCols B)).2, (limits sz (hotRows B)).1,
      (limits sz (hotRows B)).2, ipx - (sz / 2 : Nat), ipy - (sz / 2 : Nat)⟩, ?_, ?_⟩
  · unfold setupOne
    rw [hsup, eS]
    simp only [bind, Except.bind]
    rw [eA]
    simp only
    rw [eB]
    rfl
  have hB : ∀ r c : Nat, r < sz → c < sz → B.px r c =
      if InMask t (ipx - (sz / 2 : Nat) + c) (ipy - (sz / 2 : Nat) + r) then
        t.ie.px (ipy - (sz / 2 : Nat) + r).toNat (ipx - (sz / 2 : Nat) + c).toNat else 0 := by
    intro r c hr hc
    rw [b3 r c hr hc]
    unfold InMask
    rw [show (c : Int) - ((sz / 2 : Nat) - ipx) = ipx - (sz / 2 : Nat) + c by omega,
      show (r : Int) - ((sz / 2 : Nat) - ipy) = ipy - (sz / 2 : Nat) + r by omega]
  -- a weighted pixel of the mask is a weighted pixel of the array
  have hfwd : ∀ x y : Int, InMask t x y → 0 < t.ie.px y.toNat x.toNat → ∃ r c : Nat, r < sz ∧ c < sz ∧ 0 < B.px r c ∧
      (c : Int) = x - (ipx - (sz / 2 : Nat)) ∧ (r : Int) = y - (ipy - (sz / 2 : Nat)) := by
    intro x y hin hpos
    have hin' := hin
    unfold InMask at hin'
    refine ⟨(y - (ipy - (sz / 2 : Nat))).toNat, (x - (ipx - (sz / 2 : Nat))).toNat, by omega, by omega, ?_, by omega, by omega⟩
    rw [hB _ _ (by omega) (by omega),
      show ipx - ((sz / 2 : Nat) : Int) + ((x - (ipx - ((sz / 2 : Nat) : Int))).toNat : Int) = x by omega,
      show ipy - ((sz / 2 : Nat) : Int) + ((y - (ipy - ((sz / 2 : Nat) : Int))).toNat : Int) = y by omega, if_pos hin]
    exact hpos
  have hbwd : ∀ r c : Nat, r < sz → c < sz → 0 < B.px r c → InMask t (ipx - (sz / 2 : Nat) + c) (ipy - (sz / 2 : Nat) + r) ∧
      0 < t.ie.px (ipy - (sz / 2 : Nat) + r).toNat (ipx - (sz / 2 : Nat) + c).toNat := by
    intro r c hr hc hpos
    rw [hB r c hr hc] at hpos
    by_cases h : InMask t (ipx - (sz / 2 : Nat) + c) (ipy - (sz / 2 : Nat) + r)
    · rw [if_pos h] at hpos; exact ⟨h, hpos⟩
    · rw [if_neg h] at hpos; exact absurd hpos (lt_irrefl _)
  refine ⟨⟨rfl, rfl⟩, ⟨rfl, rfl⟩, ⟨a1, a2, b1, b2, s1, s2⟩, ?_, hB, s3, ?_, ?_⟩
  · intro r c hr hc
    show A.px r c = _
    rw [a3 r c hr hc]
    unfold InMask
    simp only
    rw [show (c : Int) - ((sz / 2 : Nat) - ipx) = ipx - (sz / 2 : Nat) + c by omega,
      show (r : Int) - ((sz / 2 : Nat) - ipy) = ipy - (sz / 2 : Nat) + r by omega]
  · intro x y hin
    unfold InMask at hin
    simp only
    omega
  · rintro ⟨wx, wy, win, wpos⟩ d
    obtain ⟨r0, c0, hr0, hc0, hp0, -, -⟩ := hfwd wx wy win wpos
    constructor
    · rw [limits_ok sz (hotCols B) (hotCols_sorted B) (fun c hc => by have := ((mem_hotCols B c).mp hc).1; omega)
        (List.ne_nil_of_mem ((mem_hotCols B c0).mpr ⟨by omega, r0, by omega, hp0⟩)) d]
      constructor
      · intro h x y hin hpos
        obtain ⟨r, c, hr, hc, hp, ec, er⟩ := hfwd x y hin hpos
        have := h c ((mem_hotCols B c).mpr ⟨by omega, r, by omega, hp⟩)
        simp only
        omega
      · intro h c hc
        obtain ⟨hc1, r, hr, hp⟩ := (mem_hotCols B c).mp hc
        obtain ⟨h1, h2⟩ := hbwd r c (by omega) (by omega) hp
        have := h _ _ h1 h2
        simp only at this
        omega
    · rw [limits_ok sz (hotRows B) (hotRows_sorted B) (fun c hc => by have := ((mem_hotRows B c).mp hc).1; omega)
        (List.ne_nil_of_mem ((mem_hotRows B r0).mpr ⟨by omega, c0, by omega, hp0⟩)) d]
      constructor
      · intro h x y hin hpos
        obtain ⟨r, c, hr, hc, hp, ec, er⟩ := hfwd x y hin hpos
        have := h r ((mem_hotRows B r).mpr ⟨by omega, c, by omega, hp⟩)
        simp only
        omega
      · intro h r hr
        obtain ⟨hr1, c, hc, hp⟩ := (mem_hotRows B r).mp hr
        obtain ⟨h1, h2⟩ := hbwd r c (by omega) (by omega) hp
        have := h _ _ h1 h2
        simp only at this
        omega

theorem params_ok (rnd : R → Int) (tims : List (Tim R)) (pos : Tim R → R × R) (hne : tims ≠ [])
    (hf : ∀ t ∈ tims, Fits t) :
    ∃ P, getImageParams rnd none tims pos = .ok P ∧ (P.sz % 2 = 0 ∧ 12 ≤ P.sz ∧ ∃ k, P.sz = 2 ^ k) ∧
      P.ims.length = tims.length ∧ ∀ (i : Nat) (t : Tim R) (p : Padded R), tims[i]? = some t → P.ims[i]? = some p →
        Layout t P.sz (rnd (pos t).1) (rnd (pos t).2) p := by
  unfold getImageParams
  simp only
  cases hm : (tims.flatMap (fun t => reach t (rnd (pos t).1) (rnd (pos t).2))).max? with
  | none =>
    rw [List.max?_eq_none_iff] at hm
    obtain ⟨t, ts, rfl⟩ := List.exists_cons_of_ne_nil hne
    simp [reach] at hm
  | some m =>
    rw [List.max?_eq_some_iff] at hm
    obtain ⟨t, ts, rfl⟩ := List.exists_cons_of_ne_nil hne
    have hle : ∀ t' ∈ t :: ts, ∀ v ∈ reach t' (rnd (pos t').1) (rnd (pos t').2), v ≤ m := by
      intro t' ht v hv
      exact hm.2 v (List.mem_flatMap.mpr ⟨t', ht, hv⟩)
    have hpos : 1 ≤ m := by
      have h1 := hle t (by simp) (1 + rnd (pos t).1 - t.x0) (by simp [reach])
      have h2 := hle t (by simp) (1 + t.x1 - rnd (pos t).1) (by simp [reach])
      have := (hf t (by simp)).x
      omega
    obtain ⟨sz, e, h1, h2⟩ := grid_ok (5 + m) (by omega)
    obtain ⟨ims, e', hl, hi⟩ := mapM_ex (fun t => setupOne sz t (rnd (pos t).1) (rnd (pos t).2))
      (fun t p => Layout t sz (rnd (pos t).1) (rnd (pos t).2) p) (t :: ts)
      (fun t' ht => setupOne_ok sz h1 t' (hf t' ht) _ _ m h2 (hle t' ht))
    refine ⟨⟨sz, ims⟩, ?_, ⟨h1, by simp only; omega, ?_⟩, hl, fun i t' p a b => (hi i t' p a b).2⟩
    · simp only [bind, Except.bind]
      rw [e]
      simp only
      rw [e']
    · unfold gridSize at e
      rw [if_neg (by omega)] at e
      exact ⟨_, (Except.ok.inj e).symm⟩

end Verif.Gpu
