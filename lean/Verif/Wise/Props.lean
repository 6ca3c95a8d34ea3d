import Verif.Wise.Lemmas
import Mathlib.Algebra.Order.Field.Rat

/-!
# C121: forced photometry on overlapping tiles
-/

namespace Verif.Wise

variable {R S : Type}

section
variable [Field R] [LinearOrder R] [IsStrictOrderedRing R]

omit [IsStrictOrderedRing R] in
theorem start_inv (N : Nat) (par : Nat → Nat) (fit : Fit R S) (flux : Nat → List R) (tile : Nat → Option Nat) (i : Nat) :
    Inv N par fit ⟨fun _ => 10 ^ 100, flux, fun _ => 0, fun _ => none, tile⟩ [] i ⟨fun _ => 10 ^ 100, flux, fun _ => 0, fun _ => none, tile⟩ :=
  ⟨fun r => by simp, Or.inr ⟨by simp, rfl, rfl, rfl, rfl⟩⟩

/-- One band. -/
theorem band_result {par : Nat → Nat} {fit : Fit R S} (hf : Proper par fit) {N : Nat} (h1 : ∀ i < N, par i = 1) {ts : List (Tile R)}
    {flux flux' : Nat → List R} {tile : Nat → Option Nat} {o : Out R S} (hb : band N fit ts flux tile = .ok (o, flux')) {i : Nat} (hi : i < N)
    (ho : Orderly ts i) :
    (∃ t, Nearest ts t i ∧ Reports N par fit t i o) ∨ ((∀ u ∈ ts, ¬ Inside u i) ∧ Blank i o ∧ o.tile i = tile i) := by
  unfold band at hb
  cases hx : tiles N fit ts ⟨fun _ => 10 ^ 100, flux, fun _ => 0, fun _ => none, tile⟩ with
  | error e => rw [hx] at hb; cases hb
  | ok st =>
    rw [hx] at hb
    cases hb
    have hv := tiles_inv hf h1 hi ts [] _ st ho (start_inv N par fit flux tile i) hx
    rw [List.nil_append] at hv
    rcases hv.res with ⟨t, hn, l, r, k, b1, b2, b3, b4, b5, b6, b7, b8⟩ | ⟨c1, c2, c3, c4, c5⟩
    · exact Or.inl ⟨t, hn, l, r, k, _, b1, b2, b3, b4, b5, b6, rfl, b7, b8⟩
    · exact Or.inr ⟨c1, ⟨if_pos c3, c3, c4⟩, c5⟩

/-- **C121.** For any catalogue, bands and tiles in any order: in every band, the flux, inverse variance, statistics and tile reported for a source
are those that the source has in the fit, together with all sources near it, of the tile whose centre is nearest among those whose
image has the source; sources inside no image are reported with flux and inverse variance zero, whatever happened in other bands.
Assumed: sources have one flux each, and tiles that have a source are nearer to it than those that have it only in the margin. -/
theorem C121_nearest_partial {N : Nat} {par : Nat → Nat} (h1 : ∀ i < N, par i = 1) : ∀ (bs : List (List (Tile R) × Fit R S)) (flux : Nat → List R)
    (tile : Nat → Option Nat) (os : List (Out R S)), (∀ b ∈ bs, Proper par b.2) → (∀ b ∈ bs, ∀ i < N, Orderly b.1 i) →
    bands N bs flux tile = .ok os →
    List.Forall₂ (fun b o => ∀ i < N, (∃ t, Nearest b.1 t i ∧ Reports N par b.2 t i o) ∨ ((∀ u ∈ b.1, ¬ Inside u i) ∧ Blank i o)) bs os
  | [], _, _, os, _, _, h => by
    cases h
    exact List.Forall₂.nil
  | b :: bs, flux, tile, os, hp, ho, h => by
    unfold bands at h
    cases hb : band N b.2 b.1 flux tile with
    | error e => rw [hb] at h; cases h
    | ok r =>
      rw [hb] at h
      simp only at h
      cases hr : bands N bs r.2 r.1.tile with
      | error e => rw [hr] at h; cases h
      | ok os' =>
        rw [hr] at h
        cases h
        refine List.Forall₂.cons (fun i hi => ?_) (C121_nearest_partial h1 bs r.2 r.1.tile os' (fun c hc => hp c (List.mem_cons_of_mem _ hc))
          (fun c hc => ho c (List.mem_cons_of_mem _ hc)) hr)
        rcases band_result (hp b List.mem_cons_self) h1 hb hi (ho b List.mem_cons_self i hi) with q | ⟨q1, q2, -⟩
        · exact Or.inl q
        · exact Or.inr ⟨q1, q2⟩

/-- **C121, order of the tiles.** If fits have one solution and no two tiles that have a source are equally near to it, then the flux, inverse
variance and tile reported for it do not depend on the order of the tiles, nor on the fluxes the sources had before. -/
theorem C121_order_partial {N : Nat} {par : Nat → Nat} (h1 : ∀ i < N, par i = 1) {fit : Fit R S} (hf : Proper par fit) (hd : Determined par fit)
    {ts ts' : List (Tile R)} (hperm : ts.Perm ts') {flux flux' f f' : Nat → List R} {tile tile' : Nat → Option Nat} {o o' : Out R S}
    (hb : band N fit ts flux tile = .ok (o, f)) (hb' : band N fit ts' flux' tile' = .ok (o', f')) {i : Nat} (hi : i < N) (ho : Orderly ts i)
    (hties : ∀ t ∈ ts, ∀ u ∈ ts, Inside t i → Inside u i → centreDist t i = centreDist u i → t = u) :
    o.nm i = o'.nm i ∧ o.ivar i = o'.ivar i ∧ ((∃ t ∈ ts, Inside t i) → o.tile i = o'.tile i) := by
  have ho' : Orderly ts' i := by
    intro t ht hin
    exact ⟨(ho t (hperm.mem_iff.mpr ht) hin).1, fun u hu => (ho t (hperm.mem_iff.mpr ht) hin).2 u (hperm.mem_iff.mpr hu)⟩
  have mem : ∀ {ts : List (Tile R)} {t}, Nearest ts t i → t ∈ ts := by
    rintro ts t ⟨-, a, b, rfl, -⟩
    simp
  rcases band_result hf h1 hb hi ho with ⟨t, hn, l, r, k, fl, b1, b2, b3, b4, b5, b6, b7, b8, b9⟩ | ⟨c1, c2, c3⟩
  · rcases band_result hf h1 hb' hi ho' with ⟨t', hn', l', r', k', fl', b1', b2', b3', b4', b5', b6', b7', b8', b9'⟩ | ⟨c1', c2', c3'⟩
    · have e : t = t' := by
        refine hties t (mem hn) t' (hperm.mem_iff.mpr (mem hn')) hn.1 hn'.1 (le_antisymm ?_ ?_)
        · exact hn.le (hperm.mem_iff.mpr (mem hn')) hn'.1
        · exact hn'.le (hperm.mem_iff.mp (mem hn)) hn.1
      subst e
      obtain ⟨e1, e2⟩ := hd t l l' r r' b1 b1' (fun j => (b2 j).trans (b2' j).symm) k k' i b4 b4'
      rw [b5, b5'] at e1
      rw [b6, b6'] at e2
      have e1' := Option.some.inj e1
      have e2' := Option.some.inj e2
      refine ⟨?_, e2', fun _ => b9.trans b9'.symm⟩
      rw [b7, b7', e1', e2']
    · exact absurd hn.1 (c1' t (hperm.mem_iff.mp (mem hn)))
  · rcases band_result hf h1 hb' hi ho' with ⟨t', hn', -⟩ | ⟨c1', c2', c3'⟩
    · exact absurd hn'.1 (c1 t' (hperm.mem_iff.mpr (mem hn')))
    · exact ⟨c2.1.trans c2'.1.symm, c2.2.1.trans c2'.2.1.symm, fun ⟨t, ht, hin⟩ => absurd hin (c1 t ht)⟩

/-- **C121, whole tiles.** If the images are whole square tiles of the same size then tiles that have a source are nearer to it than those that
have it only in the margin. -/
theorem C121_whole {n : R} (hn : n / 2 < 10 ^ 100) {ts : List (Tile R)} {i : Nat} (hw : ∀ t ∈ ts, Whole n t i) : Orderly ts i := by
  have inside : ∀ t ∈ ts, Inside t i → centreDist t i ≤ n / 2 := by
    intro t ht ⟨_, h1, h2, h3, h4⟩
    obtain ⟨w1, w2, w3, w4, w5, w6⟩ := hw t ht
    unfold centreDist
    rw [w3, w4]
    rw [w1] at h2
    rw [w2] at h4
    refine max_le (abs_le.mpr ⟨?_, ?_⟩) (abs_le.mpr ⟨?_, ?_⟩) <;> simp only <;> linarith
  have outside : ∀ t ∈ ts, Near t i → ¬ Inside t i → n / 2 < centreDist t i := by
    intro t ht ⟨hp, _⟩ hni
    obtain ⟨w1, w2, w3, w4, w5, w6⟩ := hw t ht
    unfold centreDist
    rw [w3, w4, lt_max_iff, lt_abs, lt_abs]
    by_contra hc
    push Not at hc
    obtain ⟨⟨a1, a2⟩, a3, a4⟩ := hc
    simp only at a1 a2 a3 a4
    refine hni ⟨hp, by linarith, ?_, by linarith, ?_⟩
    · rw [w1]
      exact lt_of_le_of_ne (by linarith) w5
    · rw [w2]
      exact lt_of_le_of_ne (by linarith) w6
  intro t ht hin
  exact ⟨lt_of_le_of_lt (inside t ht hin) hn, fun u hu h1 h2 => lt_of_le_of_lt (inside t ht hin) (outside u hu h1 h2)⟩

end

/-! ### Examples and negations -/

/-- A whole tile of 100 pixels whose lower left corner is at the given position of the sky; sources are at `(30 i, 0)`. -/
def whole (id : Nat) (x0 y0 : ℚ) : Tile ℚ :=
  ⟨id, true, 100, 100, fun i => (30 * i - x0, - y0), fun i => (30 * i - x0 + 1, - y0 + 1), (101 / 2, 101 / 2)⟩

/-- A fit which gives a source the tile's number plus its own as flux, and as inverse variance, one per parameter, ten times its own plus the number
of the parameter. -/
def someFit (par : Nat → Nat) : Fit ℚ Nat := fun t l =>
  .ok ⟨l.map (fun p => [((t.id + p.1 : Nat) : ℚ)]), (l.map (fun p => (List.range (par p.1)).map (fun k => ((10 * (p.1 + 1) + k : Nat) : ℚ)))).flatten,
    some (l.map (fun p => 7 * p.1))⟩

/-- The columns of the first `N` sources. -/
def show' (N : Nat) (r : Except PyErr (List (Out ℚ Nat))) : List (List (ℚ × ℚ × Option Nat × Option Nat)) :=
  match r with
  | .error _ => []
  | .ok os => os.map (fun o => (List.range N).map (fun i => (o.nm i, o.ivar i, o.stat i, o.tile i)))

/-- Two overlapping tiles, four sources; the second and third source are in both, the fourth only in the second tile in the first band, and in
none in the second. -/
example : show' 4 (bands 4 [([whole 100 (-10) (-50), whole 200 20 (-50)], someFit (fun _ => 1)), ([whole 100 (-10) (-50)], someFit (fun _ => 1))]
      (fun _ => [1]) (fun _ => none)) =
    [[(100, 10, some 0, some 100), (101, 20, some 7, some 100), (202, 30, some 14, some 200), (203, 40, some 21, some 200)],
     [(100, 10, some 0, some 100), (101, 20, some 7, some 100), (102, 30, some 14, some 100), (0, 0, none, some 200)]] := by
  decide +kernel

theorem someFit_proper : Proper (fun _ => 1) (someFit (fun _ => 1)) := by
  intro t l r h
  have h' := Except.ok.inj h
  subst h'
  refine ⟨by simp, ?_, fun s hs => ?_⟩
  · clear h
    induction l with
    | nil => rfl
    | cons p l ih =>
      simp at ih ⊢
      omega
  · have := Option.some.inj hs
    subst this
    simp

example : ∀ t ∈ [whole 100 (-10) (-50), whole 200 20 (-50)], Whole 100 t 2 := by
  intro t ht
  simp only [List.mem_cons, List.not_mem_nil, or_false] at ht
  rcases ht with rfl | rfl
  · refine ⟨rfl, rfl, ?_, rfl, ?_, ?_⟩ <;> decide +kernel
  · refine ⟨rfl, rfl, ?_, rfl, ?_, ?_⟩ <;> decide +kernel

/-- The image of a tile cut to a region: the source is near the centre of the tile but just outside the image. -/
def cut : Tile ℚ := ⟨100, true, 40, 40, fun _ => (-2, 20), fun _ => (48, 51), (101 / 2, 101 / 2)⟩

/-- **C121, negation.** A source that is inside the image of one tile, and just outside the image (cut to the region asked for) of another tile whose
centre is nearer, gets no photometry if the nearer tile comes first; in the other order it does. -/
theorem C121_blocked_false :
    Inside (whole 200 (-10) (-90)) 0 ∧ ¬ Inside cut 0 ∧
      show' 1 (bands 1 [([cut, whole 200 (-10) (-90)], someFit (fun _ => 1))] (fun _ => [1]) (fun _ => none)) = [[(0, 0, none, none)]] ∧
      show' 1 (bands 1 [([whole 200 (-10) (-90), cut], someFit (fun _ => 1))] (fun _ => [1]) (fun _ => none)) =
        [[(200, 10, some 0, some 200)]] := by
  refine ⟨?_, ?_, ?_, ?_⟩
  · refine ⟨rfl, ?_, ?_, ?_, ?_⟩ <;> decide +kernel
  · intro h
    exact absurd h.2.1 (by decide +kernel)
  · decide +kernel
  · decide +kernel

/-- **C121, negation.** With a composite galaxy, which has two fluxes, the inverse variances of all sources after it are those of other
parameters: the source after the galaxy gets that of the galaxy's second component (11) instead of its own (20). -/
theorem C121_composite_false :
    let par := fun i => if i = 0 then 2 else 1
    (someFit par (whole 100 (-10) (-50)) [(0, [1, 1]), (1, [1])]).toOption.map (·.iv) = some [10, 11, 20] ∧
    (show' 2 (bands 2 [([whole 100 (-10) (-50)], someFit par)] (fun _ => [1]) (fun _ => none))).map (·.map (·.2.1)) = [[10, 11]] := by
  refine ⟨?_, ?_⟩ <;> decide +kernel

/-- **C121, negation.** If the fit of a source's nearest tile has no statistics (the fluxes to start from could not be improved), those of an
earlier tile stay beside the inverse variance and tile of the new one. -/
theorem C121_stale_false :
    let fit : Fit ℚ Nat := fun t l =>
      if t.id = 200 then .ok ⟨l.map (·.2), l.map (fun _ => 3), none⟩ else .ok ⟨l.map (fun _ => [5]), l.map (fun _ => 2), some (l.map (fun _ => 9))⟩
    show' 1 (bands 1 [([whole 100 (-10) (-90), whole 200 (-50) (-50)], fit)] (fun _ => [1]) (fun _ => none)) = [[(5, 3, some 9, some 200)]] := by
  decide +kernel

end Verif.Wise
