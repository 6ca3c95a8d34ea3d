import Verif.Sfd.Lemmas

/-!
# C122: reddening from interpolated maps
-/

namespace Verif.Sfd

open Spec

section interp
variable {R : Type} [Field R] [LinearOrder R] [IsStrictOrderedRing R]

/-- C122: `bilinear_interp_nonzero` inside an image without negative pixels (coordinates from zero) returns, with the four pixels around the
position, a number between the least and the greatest of those that are not zero, and zero if and only if all are zero; the bilinear formula if
none is zero; the pixel itself at its centre if it is not zero.  Past the centres of the last pixels the last pixels are repeated.  Partial: to
the left of the centres of the first pixels it is false (`C122_edge_false`). -/
theorem C122_interp_partial (floor : R → Int) (hf : IsFloor floor) (m : Map R) (hm : ∀ j i, 0 ≤ m.px j i) (x y : R) (hx0 : 0 ≤ x) (hx1 : x < m.W)
    (hy0 : 0 ≤ y) (hy1 : y < m.H) :
    ∃ i j : Nat, ∃ v, (i : R) ≤ x ∧ x < i + 1 ∧ (j : R) ≤ y ∧ y < j + 1 ∧ interp floor m x y = .ok v ∧
      (let ps := [m.px j i, m.px j (min (i + 1) (m.W - 1)), m.px (min (j + 1) (m.H - 1)) i, m.px (min (j + 1) (m.H - 1)) (min (i + 1) (m.W - 1))]
       ((∃ p ∈ ps, p ≠ 0) → AmongPositive ps v) ∧ (v = 0 ↔ ∀ p ∈ ps, p = 0)) ∧
      (m.px j i ≠ 0 → m.px j (min (i + 1) (m.W - 1)) ≠ 0 → m.px (min (j + 1) (m.H - 1)) i ≠ 0 →
        m.px (min (j + 1) (m.H - 1)) (min (i + 1) (m.W - 1)) ≠ 0 →
        v = bilinear (x - i) (y - j) (m.px j i) (m.px j (min (i + 1) (m.W - 1))) (m.px (min (j + 1) (m.H - 1)) i)
          (m.px (min (j + 1) (m.H - 1)) (min (i + 1) (m.W - 1)))) ∧
      (x = i → y = j → m.px j i ≠ 0 → v = m.px j i) := by
  obtain ⟨i, j, hi, hj, h1, h2, h3, h4, h5⟩ := interp_nat floor hf m x y hx0 hx1 hy0 hy1
  have pos : ∀ b a, m.px b a ≠ 0 → 0 < m.px b a := fun b a h => lt_of_le_of_ne (hm b a) (Ne.symm h)
  have hfx0 : 0 ≤ x - i := by linarith
  have hfx1 : x - i ≤ 1 := by linarith
  have hfy0 : 0 ≤ y - j := by linarith
  have hfy1 : y - j ≤ 1 := by linarith
  refine ⟨i, j, _, h1, h2, h3, h4, h5, ⟨?_, ?_⟩, ?_, ?_⟩
  · exact mix2_among _ _ _ _ _ _ hfx0 hfx1 hfy0 hfy1 (hm _ _) (hm _ _) (hm _ _) (hm _ _)
  · rw [mix_zero _ _ _ hfy0 hfy1 (mix_nonneg _ _ _ hfx0 hfx1 (hm _ _) (hm _ _)) (mix_nonneg _ _ _ hfx0 hfx1 (hm _ _) (hm _ _)),
      mix_zero _ _ _ hfx0 hfx1 (hm _ _) (hm _ _), mix_zero _ _ _ hfx0 hfx1 (hm _ _) (hm _ _)]
    simp only [List.mem_cons, List.not_mem_nil, or_false, forall_eq_or_imp, forall_eq]
    tauto
  · intro ha hb hc hd
    have hg : 0 ≤ 1 - (x - i) := by linarith
    have e1 := mix_pos (x - i) _ _ (pos _ _ ha) (pos _ _ hb)
    have e2 := mix_pos (x - i) _ _ (pos _ _ hc) (pos _ _ hd)
    have ne1 : mix (x - i) (m.px j i) (m.px j (min (i + 1) (m.W - 1))) ≠ 0 := by
      rw [Ne, mix_zero _ _ _ hfx0 hfx1 (hm _ _) (hm _ _)]; exact fun h => ha h.1
    have ne2 : mix (x - i) (m.px (min (j + 1) (m.H - 1)) i) (m.px (min (j + 1) (m.H - 1)) (min (i + 1) (m.W - 1))) ≠ 0 := by
      rw [Ne, mix_zero _ _ _ hfx0 hfx1 (hm _ _) (hm _ _)]; exact fun h => hc h.1
    rw [mix_pos (y - j) _ _ (lt_of_le_of_ne (mix_nonneg _ _ _ hfx0 hfx1 (hm _ _) (hm _ _)) (Ne.symm ne1))
      (lt_of_le_of_ne (mix_nonneg _ _ _ hfx0 hfx1 (hm _ _) (hm _ _)) (Ne.symm ne2)), e1, e2]
    unfold bilinear; ring
  · intro hx hy hne
    have hx' : x - i = 0 := by linarith
    have hy' : y - j = 0 := by linarith
    rw [hx', hy', mix_left _ _ hne, mix_left _ _ hne]

/-- C122: maps of positive numbers that are linear in the coordinates are reproduced between pixels. -/
theorem C122_linear (floor : R → Int) (hf : IsFloor floor) (m : Map R) (c₀ c₁ c₂ : R) (hm : ∀ j i, j < m.H → i < m.W → m.px j i = c₀ + c₁ * i + c₂ * j)
    (hpos : ∀ j i, j < m.H → i < m.W → 0 < m.px j i) (x y : R) (hx0 : 0 ≤ x) (hx1 : x < (m.W : R) - 1) (hy0 : 0 ≤ y) (hy1 : y < (m.H : R) - 1) :
    interp floor m x y = .ok (c₀ + c₁ * x + c₂ * y) := by
  obtain ⟨i, j, hi, hj, h1, h2, h3, h4, h5⟩ := interp_nat floor hf m x y hx0 (by linarith) hy0 (by linarith)
  have hi' : i + 1 < m.W := by
    have : ((i + 1 : Nat) : R) < m.W := by push_cast; linarith
    exact_mod_cast this
  have hj' : j + 1 < m.H := by
    have : ((j + 1 : Nat) : R) < m.H := by push_cast; linarith
    exact_mod_cast this
  have ei : min (i + 1) (m.W - 1) = i + 1 := by omega
  have ej : min (j + 1) (m.H - 1) = j + 1 := by omega
  have hg : 0 < 1 - (x - i) := by linarith
  rw [ei, ej] at h5
  have pa := hpos j i hj hi
  have pb := hpos j (i + 1) hj hi'
  have pc := hpos (j + 1) i hj' hi
  have pd := hpos (j + 1) (i + 1) hj' hi'
  have hfx0 : 0 ≤ x - i := by linarith
  rw [h5, mix_pos _ _ _ pa pb, mix_pos _ _ _ pc pd, mix_pos]
  · rw [hm _ _ hj hi, hm _ _ hj hi', hm _ _ hj' hi, hm _ _ hj' hi']
    push_cast
    congr 1; ring
  · have : 0 < (1 - (x - i)) * m.px j i := mul_pos hg pa
    have := mul_nonneg hfx0 pb.le
    linarith
  · have : 0 < (1 - (x - i)) * m.px (j + 1) i := mul_pos hg pc
    have := mul_nonneg hfx0 pd.le
    linarith

end interp

/-- Pixels of a map four wide and two high. -/
def tiny : Map ℚ := { H := 2, W := 4, px := fun j i => if j = 0 then (if i = 1 then 0 else 10 * (i : ℚ) + 1) else 5 }

/-- Past the last pixel; zero pixels left out; between four pixels. -/
example : interp Rat.floor tiny (7 / 2) 0 = .ok 31 ∧ interp Rat.floor tiny (1 / 2) 0 = .ok 1 ∧ interp Rat.floor tiny (5 / 2) (1 / 2) = .ok (31 / 2) ∧
    interp Rat.floor tiny 4 0 = .error .index := by refine ⟨?_, ?_, ?_, ?_⟩ <;> decide +kernel

/-- A linear map. -/
def ramp : Map ℚ := { H := 3, W := 3, px := fun j i => 1 + 2 * (i : ℚ) + 3 * (j : ℚ) }

example : interp Rat.floor ramp (3 / 2) (1 / 4) = .ok (1 + 2 * (3 / 2) + 3 * (1 / 4)) := by decide +kernel

/-- C122 is false to the left of the centres of the first pixels, where `ebv` still accepts positions: the index -1 is the last column, and
the result is not between the pixels near the position. -/
theorem C122_edge_false : ∃ (m : Map ℚ) (x y : ℚ), (∀ j i, 0 < m.px j i) ∧ 1 / 2 ≤ x ∧ x ≤ m.W + 1 / 2 ∧ 1 / 2 ≤ y ∧ y ≤ m.H + 1 / 2 ∧
    (∀ j, j < m.H → m.px j 0 = 1 ∧ m.px j 1 = 1) ∧ interp Rat.floor m (x - 1) (y - 1) = .ok (101 / 2) := by
  refine ⟨{ H := 2, W := 4, px := fun _ i => if i = 3 then 100 else 1 }, 1 / 2, 1, ?_, ?_, ?_, ?_, ?_, ?_, ?_⟩
  · intro j i; dsimp only; split <;> norm_num
  · norm_num
  · norm_num
  · norm_num
  · norm_num
  · intro j _; exact ⟨rfl, rfl⟩
  · decide +kernel

section ebv
variable {R : Type} [Field R] [LinearOrder R]

/-- C122: the reddening of each source depends on that source alone: an array of sources gives the array of what each gives alone, and
raises if one of them does. -/
theorem C122_each (floor : R → Int) (toLB : R × R → R × R) (s : SFD R) (radec : List (R × R)) (out : List R) :
    s.ebv floor toLB radec = .ok out ↔ List.Forall₂ (fun p v => s.ebv floor toLB [p] = .ok [v]) radec out := by
  rw [ebv_ok]
  have : ∀ p v, (s.ebv floor toLB [p] = .ok [v]) ↔ point floor s (toLB p) v := by
    intro p v
    rw [ebv_ok]; simp
  simp only [this]

/-- C122: one source is looked up in the map of its hemisphere, at its pixel position less one. -/
theorem C122_hemisphere (floor : R → Int) (toLB : R × R → R × R) (s : SFD R) (p : R × R) (v : R) :
    s.ebv floor toLB [p] = .ok [v] ↔
      (let (m, wcs) := if 0 ≤ (toLB p).2 then (s.north, s.northWcs) else (s.south, s.southWcs)
       let xy := wcs (toLB p)
       (1 / 2 ≤ xy.1 ∧ xy.1 ≤ m.W + 1 / 2 ∧ 1 / 2 ≤ xy.2 ∧ xy.2 ≤ m.H + 1 / 2) ∧ interp floor m (xy.1 - 1) (xy.2 - 1) = .ok v) := by
  rw [ebv_ok]
  simp only [List.forall₂_cons, List.Forall₂.nil, and_true, point]
  split
  · rfl
  · rfl

/-- C122: `extinction` returns, for each source and filter, the product of the coefficient of the filter and the reddening of the source, and
the reddenings too if asked for. -/
theorem C122_extinction (floor : R → Int) (toLB : R × R → R × R) (table : String → Option R) (s : SFD R) (filts : List String)
    (radec : List (R × R)) (ebv : List R) (he : s.ebv floor toLB radec = .ok ebv) (cs : List R)
    (hc : List.Forall₂ (fun f c => table f = some c) filts cs) :
    ∃ out, s.extinction floor toLB table filts radec = .ok out ∧ s.extinctionEbv floor toLB table filts radec = .ok (ebv, out) ∧
      out.length = radec.length ∧ ∀ (k j : Nat) (v c : R), ebv[k]? = some v → cs[j]? = some c → ∃ row, out[k]? = some row ∧ row.length = filts.length ∧
        row[j]? = some (c * v) := by
  have hfac : factors table filts = .ok cs := by
    clear he
    induction hc with
    | nil => rfl
    | cons h _ ih => unfold factors; rw [h]; dsimp only; rw [ih]
  refine ⟨ebv.map (fun v => cs.map (fun c => c * v)), ?_, ?_, ?_, ?_⟩
  · unfold SFD.extinction; rw [he]; dsimp only; rw [hfac]
  · unfold SFD.extinctionEbv; rw [he]; dsimp only; rw [hfac]
  · rw [List.length_map, ((ebv_ok ..).1 he).length_eq]
  · intro k j v c hv hcj
    refine ⟨cs.map (fun c => c * v), ?_, ?_, ?_⟩
    · rw [List.getElem?_map, hv]; rfl
    · rw [List.length_map, hc.length_eq]
    · rw [List.getElem?_map, hcj]; rfl

/-- C122: a filter without coefficient is KeyError, whatever the other filters. -/
theorem C122_unknown (floor : R → Int) (toLB : R × R → R × R) (table : String → Option R) (s : SFD R) (filts : List String)
    (radec : List (R × R)) (ebv : List R) (he : s.ebv floor toLB radec = .ok ebv) (f : String) (hf : f ∈ filts) (hn : table f = none) :
    s.extinction floor toLB table filts radec = .error .key := by
  have hfac : factors table filts = .error .key := by
    induction filts with
    | nil => cases hf
    | cons g l ih =>
      unfold factors
      cases hg : table g with
      | none => rfl
      | some c =>
        dsimp only
        have : f ∈ l := by
          rcases List.mem_cons.1 hf with rfl | h
          · rw [hn] at hg; cases hg
          · exact h
        rw [ih this]
  unfold SFD.extinction; rw [he]; dsimp only; rw [hfac]

end ebv

section err
variable {R : Type} [Field R] [LinearOrder R] [IsStrictOrderedRing R]

/-- C122: the only exception of `ebv` is that of a source whose position is outside its map. -/
theorem C122_raises (floor : R → Int) (hf : IsFloor floor) (toLB : R × R → R × R) (s : SFD R) (hN : 0 < s.north.H ∧ 0 < s.north.W)
    (hS : 0 < s.south.H ∧ 0 < s.south.W) (radec : List (R × R)) :
    (∃ out, s.ebv floor toLB radec = .ok out) ∨ s.ebv floor toLB radec = .error .assertion := by
  have inside : ∀ (n : Nat) (x : R), 0 < n → 1 / 2 ≤ x → x ≤ n + 1 / 2 → ∃ i, index n (floor (x - 1)) = .ok i := by
    intro n x hn h1 h2
    obtain ⟨ha, hb⟩ := hf (x - 1)
    have h3 : (-1 : Int) ≤ floor (x - 1) := by
      by_contra hc
      have : floor (x - 1) + 2 ≤ 0 := by omega
      have : ((floor (x - 1) + 2 : Int) : R) ≤ 0 := by exact_mod_cast this
      push_cast at this; linarith
    have h4 : floor (x - 1) < n := by
      by_contra hc
      have : (n : Int) ≤ floor (x - 1) := by omega
      have : ((n : Int) : R) ≤ floor (x - 1) := by exact_mod_cast this
      push_cast at this; linarith
    unfold index
    by_cases h0 : 0 ≤ floor (x - 1)
    · rw [if_pos h0, if_pos h4]; exact ⟨_, rfl⟩
    · rw [if_neg h0, if_pos (by omega)]; exact ⟨_, rfl⟩
  have clipped : ∀ (n : Nat) (k : Int), 0 < n → ∃ i, index n (clip n k) = .ok i := by
    intro n k hn
    unfold index clip
    rw [if_pos (by omega), if_pos (by omega)]; exact ⟨_, rfl⟩
  have all : ∀ (m : Map R), 0 < m.H ∧ 0 < m.W → ∀ l : List (R × R), (∀ p ∈ l, 1 / 2 ≤ p.1 ∧ p.1 ≤ m.W + 1 / 2 ∧ 1 / 2 ≤ p.2 ∧ p.2 ≤ m.H + 1 / 2) →
      ∃ vs, interpAll floor m (l.map (fun p => (p.1 - 1, p.2 - 1))) = .ok vs := by
    intro m hm l
    induction l with
    | nil => exact fun _ => ⟨[], rfl⟩
    | cons p l ih =>
      intro h
      obtain ⟨vs, hvs⟩ := ih (fun q hq => h q (by simp [hq]))
      obtain ⟨h1, h2, h3, h4⟩ := h p (by simp)
      obtain ⟨i, hi⟩ := inside m.W p.1 hm.2 h1 h2
      obtain ⟨j, hj⟩ := inside m.H p.2 hm.1 h3 h4
      obtain ⟨i', hi'⟩ := clipped m.W (floor (p.1 - 1) + 1) hm.2
      obtain ⟨j', hj'⟩ := clipped m.H (floor (p.2 - 1) + 1) hm.1
      have : ∃ v, interp floor m (p.1 - 1) (p.2 - 1) = .ok v := by
        unfold interp Map.get
        simp only [hi, hj, hi', hj']
        exact ⟨_, rfl⟩
      obtain ⟨v, hv⟩ := this
      refine ⟨v :: vs, ?_⟩
      rw [List.map_cons]
      unfold interpAll
      rw [hv, hvs]; rfl
  have hemi : ∀ (wcs : R × R → R × R) (m : Map R), 0 < m.H ∧ 0 < m.W → ∀ lb cut ebv,
      (∃ out, hemisphere floor wcs m lb cut ebv = .ok out) ∨ hemisphere floor wcs m lb cut ebv = .error .assertion := by
    intro wcs m hm lb cut ebv
    unfold hemisphere
    split
    · exact .inl ⟨_, rfl⟩
    · dsimp only
      split
      · rename_i hb
        obtain ⟨vs, hvs⟩ := all m hm ((select lb cut).map wcs) (by
          intro p hp
          have := List.all_eq_true.1 hb p hp
          simp only [Bool.and_eq_true, decide_eq_true_eq] at this
          tauto)
        rw [hvs]; exact .inl ⟨_, rfl⟩
      · exact .inr rfl
  unfold SFD.ebv
  dsimp only
  rcases hemi s.northWcs s.north hN (radec.map toLB) ((radec.map toLB).map (fun p : R × R => decide (0 ≤ p.2))) ((radec.map toLB).map (fun _ => 0)) with ⟨o, ho⟩ | ho
  · rw [ho]; exact hemi _ _ hS _ _ _
  · rw [ho]; exact .inr rfl

end err

/-- Two maps; positions are their own pixel positions. -/
def sky : SFD ℚ := { north := ramp, south := tiny, northWcs := fun p => (p.1, p.2 + 1), southWcs := fun p => (p.1, -p.2) }

/-- Sources of both hemispheres in any order; one outside its map; two filters. -/
example : sky.ebv Rat.floor id [(2, 1), (4, -1), (1, 0), (3, -3 / 2)] = .ok [6, 31, 1, 13] ∧
    sky.ebv Rat.floor id [(2, 1), (5, -1)] = .error .assertion ∧
    sky.extinction Rat.floor id (fun f => if f = "g" then some 3 else if f = "r" then some 2 else none) ["r", "g"] [(2, 1), (4, -1)]
      = .ok [[12, 18], [62, 93]] ∧
    sky.extinction Rat.floor id (fun f => if f = "g" then some (3 : ℚ) else none) ["g", "r"] [(2, 1)] = .error .key := by
  refine ⟨?_, ?_, ?_, ?_⟩ <;> decide +kernel

end Verif.Sfd
