import Verif.Psf.VaryingSpec
import Verif.Cache.Lemmas
import Mathlib.Algebra.Order.Field.Basic
import Mathlib.Data.List.Basic
import Mathlib.Tactic.Linarith
import Mathlib.Tactic.Positivity

/-!
# Lemmas about PSFs fitted on a grid
-/

namespace Verif.Psf.Varying

variable {R Im S P : Type} [Field R]

/-! ### The grid -/

omit [Field R] in
theorem fitRow_ok (F : Fitter R Im S P) (y : R) (l : List R) : ∀ (p0 : Option (List R)) (h : Nat → List R × List R),
    (∀ (i : Nat) x, l[i]? = some x → ∃ im, F.stamp x y = .ok im ∧ F.fit im (if i = 0 then p0 else some (h (i - 1)).1) = .ok (h i)) →
    fitRow F y p0 l = .ok ((List.range l.length).map h) := by
  induction l with
  | nil => intros; rfl
  | cons x xs ih =>
    intro p0 h hh
    obtain ⟨im, e1, e2⟩ := hh 0 x rfl
    simp only [if_true] at e2
    unfold fitRow
    simp only [e1, e2]
    rw [ih (some (h 0).1) (fun i => h (i + 1))]
    · simp [Except.map, List.range_succ_eq_map, Function.comp_def]
    · intro i x' hx
      obtain ⟨im', e1', e2'⟩ := hh (i + 1) x' (by simpa using hx)
      refine ⟨im', e1', ?_⟩
      rw [if_neg (by omega)] at e2'
      rw [← e2']
      by_cases h0 : i = 0
      · subst h0; rfl
      · rw [if_neg h0, show i - 1 + 1 = i + 1 - 1 by omega]

omit [Field R] in
theorem fitGrid_ok (F : Fitter R Im S P) (XX : List R) (hX : XX ≠ []) (l : List R) :
    ∀ (px0 : Option (List R)) (g : Nat → Nat → List R × List R),
    (∀ (j : Nat) y (i : Nat) x, l[j]? = some y → XX[i]? = some x → ∃ im, F.stamp x y = .ok im ∧
      F.fit im (if i = 0 then (if j = 0 then px0 else some (g (j - 1) 0).1) else some (g j (i - 1)).1) = .ok (g j i)) →
    fitGrid F XX px0 l = .ok ((List.range l.length).map (fun j => (List.range XX.length).map (g j))) := by
  induction l with
  | nil => intros; rfl
  | cons y ys ih =>
    intro px0 g hg
    have hrow : fitRow F y px0 XX = .ok ((List.range XX.length).map (g 0)) := by
      apply fitRow_ok
      intro i x hx
      have := hg 0 y i x rfl hx
      simpa using this
    unfold fitGrid
    simp only [hrow]
    have hhead : ((List.range XX.length).map (g 0)).head? = some (g 0 0) := by
      cases XX with
      | nil => exact absurd rfl hX
      | cons x xs => simp [List.range_succ_eq_map]
    rw [hhead]
    simp only []
    rw [ih (some (g 0 0).1) (fun j => g (j + 1))]
    · simp [Except.map, List.range_succ_eq_map, Function.comp_def]
    · intro j y' i x hy hx
      obtain ⟨im, e1, e2⟩ := hg (j + 1) y' i x (by simpa using hy) hx
      refine ⟨im, e1, ?_⟩
      rw [← e2]
      congr 1
      by_cases hi : i = 0
      · rw [if_pos hi, if_pos hi, if_neg (show j + 1 ≠ 0 by omega)]
        by_cases hj : j = 0
        · subst hj; rfl
        · rw [if_neg hj, show j - 1 + 1 = j + 1 - 1 by omega]
      · rw [if_neg hi, if_neg hi]

theorem mapM_all {α β : Type} (f : α → Except PyErr β) (Q : α → β → Prop) (l : List α) (h : ∀ a ∈ l, ∃ b, f a = .ok b ∧ Q a b) :
    ∃ r, l.mapM f = .ok r ∧ List.Forall₂ Q l r := by
  induction l with
  | nil => exact ⟨[], rfl, .nil⟩
  | cons a l ih =>
    obtain ⟨b, e, q⟩ := h a (List.mem_cons_self ..)
    obtain ⟨r, er, qr⟩ := ih (fun x hx => h x (List.mem_cons_of_mem _ hx))
    refine ⟨b :: r, ?_, .cons q qr⟩
    rw [List.mapM_cons, e, er]
    rfl

theorem linspace_length (W : R) (n : Nat) : (linspace W n).length = n := by simp [linspace]

theorem linspace_get (W : R) (n i : Nat) (x : R) (h : (linspace W n)[i]? = some x) :
    i < n ∧ x = (i : R) * W / ((n : R) - 1) := by
  simp only [linspace, List.getElem?_map, Option.map_eq_some_iff] at h
  obtain ⟨k, hk, e⟩ := h
  obtain ⟨hlt, rfl⟩ := List.getElem?_eq_some_iff.1 hk
  simp only [List.getElem_range] at e
  exact ⟨by simpa using hlt, e.symm⟩

theorem linspace_get' (W : R) (n i : Nat) (h : i < n) : (linspace W n)[i]? = some ((i : R) * W / ((n : R) - 1)) := by
  simp [linspace, h]

/-! ### Histories -/

theorem ensureFit_again (F : Fitter R Im S P) (s : State R S) :
    ensureFit F (ensureFit F s).1 = ((ensureFit F s).1, (ensureFit F s).2) := by
  have key : ∀ t r, ensureFit F s = (t, r) → ensureFit F t = (t, r) := by
    intro t r h
    cases hs : s.splines with
    | some l =>
      have e : ensureFit F s = (s, .ok l) := by unfold ensureFit; rw [hs]
      rw [e] at h
      obtain ⟨rfl, rfl⟩ := Prod.mk.injEq .. ▸ h
      exact e
    | none =>
      have h' := h
      unfold ensureFit at h
      rw [hs] at h
      simp only [] at h
      split at h
      · obtain ⟨rfl, rfl⟩ := Prod.mk.injEq .. ▸ h
        exact h'
      · split at h
        · obtain ⟨rfl, rfl⟩ := Prod.mk.injEq .. ▸ h
          exact h'
        · obtain ⟨rfl, rfl⟩ := Prod.mk.injEq .. ▸ h
          rfl
  exact key _ _ rfl

theorem psfAt_again (F : Fitter R Im S P) (s : State R S) (x y x' y' : R) :
    (psfAt F (psfAt F s x y).1 x' y').2 = (psfAt F s x' y').2 := by
  simp only [psfAt, paramsAt, ensureFit_again]

section
variable {K V : Type} [DecidableEq K]

theorem find_mem (k : K) (d : List (K × Cache.Entry V)) (e : Cache.Entry V) (h : Cache.find k d = some e) : (k, e) ∈ d := by
  induction d with
  | nil => simp [Cache.find] at h
  | cons p d ih =>
    obtain ⟨k', e'⟩ := p
    unfold Cache.find at h
    split at h
    · rename_i hk
      simp only [Option.some.injEq] at h
      subst hk h
      exact List.mem_cons_self ..
    · exact List.mem_cons_of_mem _ (ih h)

theorem mem_assign (k : K) (e : Cache.Entry V) (d : List (K × Cache.Entry V)) (p : K × Cache.Entry V)
    (h : p ∈ Cache.assign k e d) : p = (k, e) ∨ p ∈ d := by
  induction d with
  | nil => left; simpa [Cache.assign] using h
  | cons q d ih =>
    obtain ⟨k', e'⟩ := q
    unfold Cache.assign at h
    split at h
    · rcases List.mem_cons.1 h with h | h
      · exact .inl h
      · exact .inr (List.mem_cons_of_mem _ h)
    · rcases List.mem_cons.1 h with h | h
      · exact .inr (by rw [h]; exact List.mem_cons_self ..)
      · rcases ih h with h | h
        · exact .inl h
        · exact .inr (List.mem_cons_of_mem _ h)

theorem mem_without (k : K) (d : List (K × Cache.Entry V)) (p : K × Cache.Entry V) (h : p ∈ Cache.without k d) : p ∈ d := by
  induction d with
  | nil => simp [Cache.without] at h
  | cons q d ih =>
    obtain ⟨k', e'⟩ := q
    unfold Cache.without at h
    split at h
    · exact List.mem_cons_of_mem _ h
    · rcases List.mem_cons.1 h with h | h
      · rw [h]; exact List.mem_cons_self ..
      · exact List.mem_cons_of_mem _ (ih h)

end

/-- What holds of a caching object that began with `s`. -/
structure Began (F : Fitter R Im S P) (s : State R S) (rounding : Int) (c : Caching R S P) : Prop where
  base : ∀ x y, (psfAt F c.base x y).2 = (psfAt F s x y).2
  cache : ∀ p ∈ c.cache.dict, (psfAt F s p.1.1 p.1.2).2 = .ok p.2.val
  maxsize : c.cache.maxsize = 100
  rounding : c.rounding = rounding

theorem cached_began [DecidableEq R] (F : Fitter R Im S P) (trunc : R → Int) (sizeOf : P → Nat) (s : State R S) (rounding : Int)
    (c : Caching R S P) (b : Began F s rounding c) (x y : R) :
    (cachedAt F trunc sizeOf c x y).2 = (psfAt F s (cell trunc rounding x) (cell trunc rounding y)).2 ∧
      Began F s rounding (cachedAt F trunc sizeOf c x y).1 := by
  unfold cachedAt
  simp only [b.rounding]
  generalize hk : (cell trunc rounding x, cell trunc rounding y) = k
  have hk1 : cell trunc rounding x = k.1 := by rw [← hk]
  have hk2 : cell trunc rounding y = k.2 := by rw [← hk]
  rw [hk1, hk2]
  unfold Cache.get
  cases hf : Cache.find k c.cache.dict with
  | some e =>
    have hm := b.cache _ (find_mem _ _ _ hf)
    simp only at hm ⊢
    refine ⟨hm.symm, b.base, ?_, b.maxsize, rfl⟩
    intro p hp
    simp only [List.mem_append, List.mem_singleton] at hp
    rcases hp with hp | hp
    · exact b.cache p (mem_without _ _ _ hp)
    · rw [hp]; exact hm
  | none =>
    simp only []
    have hb := b.base k.1 k.2
    have hbase : ∀ x y, (psfAt F (psfAt F c.base k.1 k.2).1 x y).2 = (psfAt F s x y).2 := by
      intro x y; rw [psfAt_again, b.base]
    cases hp : psfAt F c.base k.1 k.2 with
    | mk base r =>
      rw [hp] at hb hbase
      simp only at hb hbase
      cases r with
      | error e => exact ⟨hb, hbase, b.cache, b.maxsize, rfl⟩
      | ok mog =>
        have hnew : ∀ d : List ((R × R) × Cache.Entry P), (∀ p ∈ d, (psfAt F s p.1.1 p.1.2).2 = .ok p.2.val) →
            ∀ p ∈ Cache.assign k ⟨mog, sizeOf mog, 0⟩ d, (psfAt F s p.1.1 p.1.2).2 = .ok p.2.val := by
          intro d hd p hp'
          rcases mem_assign _ _ _ _ hp' with h | h
          · rw [h]; exact hb.symm
          · exact hd p h
        unfold Cache.store
        simp only [b.maxsize]
        by_cases hfull : 100 ≤ c.cache.dict.length
        · rw [if_pos hfull]
          cases hd : c.cache.dict with
          | nil => rw [hd] at hfull; simp at hfull
          | cons q d =>
            refine ⟨hb, hbase, hnew d ?_, rfl, rfl⟩
            intro p hp'
            exact b.cache p (by rw [hd]; exact List.mem_cons_of_mem _ hp')
        · rw [if_neg hfull]
          exact ⟨hb, hbase, hnew _ b.cache, rfl, rfl⟩

variable [LinearOrder R] [IsStrictOrderedRing R]

theorem linspace_increasing (W : R) (hW : 0 < W) (n : Nat) (hn : 2 ≤ n) : (linspace W n).Pairwise (· < ·) := by
  unfold linspace
  rw [List.pairwise_map]
  have hp : (0 : R) < (n : R) - 1 := by
    have : (2 : R) ≤ n := by exact_mod_cast hn
    linarith
  refine List.Pairwise.imp ?_ List.pairwise_lt_range
  intro a b hab
  have : (a : R) < b := by exact_mod_cast hab
  exact div_lt_div_of_pos_right (mul_lt_mul_of_pos_right this hW) hp

/-- What the fit gives: splines through all parameters at all nodes. -/
theorem fit_ok (F : Fitter R Im S P) (hF : Interpolates F) (s : State R S) (hW : 0 < s.W) (hH : 0 < s.H) (hx : 4 ≤ s.nx)
    (hy : 4 ≤ s.ny) (hs : s.splines = none) (g : Nat → Nat → List R × List R) (hg : Fits F s g) (N : Nat)
    (hN : ∀ j i, (g j i).2.length = N) :
    ∃ l, (ensureFit F s).2 = .ok l ∧ (ensureFit F s).1.splines = some l ∧
      ∀ j i, j < s.ny → i < s.nx → l.map (fun spl => F.eval spl (i * s.W / ((s.nx : R) - 1)) (j * s.H / ((s.ny : R) - 1))) = (g j i).2 := by
  have hgrid : fitGrid F (linspace s.W s.nx) none (linspace s.H s.ny) =
      .ok ((List.range s.ny).map (fun j => (List.range s.nx).map (g j))) := by
    rw [fitGrid_ok F (linspace s.W s.nx) (by intro h; have := congrArg List.length h; rw [linspace_length] at this; simp at this; omega)
      (linspace s.H s.ny) none g, linspace_length, linspace_length]
    intro j y i x hjy hix
    obtain ⟨hj, rfl⟩ := linspace_get _ _ _ _ hjy
    obtain ⟨hi, rfl⟩ := linspace_get _ _ _ _ hix
    obtain ⟨im, e1, e2⟩ := hg j hj i hi
    refine ⟨im, e1, ?_⟩
    rw [← e2]
    cases i with
    | zero => cases j <;> rfl
    | succ i => cases j <;> rfl
  generalize hpp : ((List.range s.ny).map (fun j => (List.range s.nx).map (g j))).map (fun row => row.map (·.2)) = pp
  have hpp' : pp = (List.range s.ny).map (fun j => (List.range s.nx).map (fun i => (g j i).2)) := by
    rw [← hpp]; simp [Function.comp_def]
  -- the splines
  have hspl : ∃ l, fitSavedData F pp (linspace s.W s.nx) (linspace s.H s.ny) = .ok l ∧
      List.Forall₂ (fun k spl => ∀ j i, j < s.ny → i < s.nx →
        F.eval spl (i * s.W / ((s.nx : R) - 1)) (j * s.H / ((s.ny : R) - 1)) = ((g j i).2[k]?).getD 0) (List.range N) l := by
    obtain ⟨a, ha⟩ : ∃ a, s.nx = a + 1 := ⟨s.nx - 1, by omega⟩
    obtain ⟨b, hb⟩ : ∃ b, s.ny = b + 1 := ⟨s.ny - 1, by omega⟩
    have hform : ∃ q r rs, pp = (q :: r) :: rs ∧ q.length = N := by
      rw [hpp', ha, hb]
      simp only [List.range_succ_eq_map, List.map_cons]
      exact ⟨_, _, _, rfl, hN _ _⟩
    obtain ⟨q, r, rs, e, hq⟩ := hform
    have hall : pp.all (fun row => row.all (fun p => p.length = q.length)) = true := by
      rw [hpp', hq]
      simp only [List.all_map, List.all_eq_true, List.mem_range, Function.comp_apply, decide_eq_true_eq]
      intro j _ i _
      exact hN j i
    have hred : fitSavedData F pp (linspace s.W s.nx) (linspace s.H s.ny) =
        (List.range N).mapM (fun k => F.spline (linspace s.W s.nx) (linspace s.H s.ny) (dataT pp s.nx k)) := by
      rw [← hq]
      unfold fitSavedData
      rw [e] at hall ⊢
      simp only [hall, if_true, linspace_length]
    rw [hred]
    apply mapM_all
    intro k hk
    have hd : dataT pp s.nx k = (List.range s.nx).map (fun i => (List.range s.ny).map (fun j => ((g j i).2[k]?).getD 0)) := by
      unfold dataT
      apply List.map_congr_left
      intro i hi
      rw [hpp', List.map_map]
      apply List.map_congr_left
      intro j _
      simp only [List.mem_range] at hi
      simp [hi]
    rw [hd]
    obtain ⟨spl, e1, e2⟩ := hF (linspace s.W s.nx) (linspace s.H s.ny)
      ((List.range s.nx).map (fun i => (List.range s.ny).map (fun j => ((g j i).2[k]?).getD 0)))
      (by rw [linspace_length]; exact hx) (by rw [linspace_length]; exact hy) (linspace_increasing _ hW _ (by omega))
      (linspace_increasing _ hH _ (by omega)) (by simp [linspace_length])
      (by intro col hc; simp only [List.mem_map] at hc; obtain ⟨i, _, rfl⟩ := hc; simp [linspace_length])
    refine ⟨spl, e1, ?_⟩
    intro j i hj hi
    exact e2 i j _ _ _ (linspace_get' _ _ _ hi) (linspace_get' _ _ _ hj) (by simp [hi, hj])
  obtain ⟨l, e, hl⟩ := hspl
  refine ⟨l, ?_, ?_, ?_⟩
  · unfold ensureFit
    rw [hs]
    simp only [hgrid]
    rw [hpp, e]
  · unfold ensureFit
    rw [hs]
    simp only [hgrid]
    rw [hpp, e]
  · intro j i hj hi
    have hlen : l.length = N := by rw [← hl.length_eq, List.length_range]
    apply List.ext_getElem
    · rw [List.length_map, hlen, hN]
    · intro k h1 h2
      rw [List.getElem_map]
      have hk : k < N := by rw [← hN j i]; exact h2
      have := (List.forall₂_iff_get.1 hl).2 k (by rw [List.length_range]; exact hk) (by rw [hlen]; exact hk)
      simp only [List.get_eq_getElem, List.getElem_range] at this
      rw [this j i hj hi]
      simp [h2]

end Verif.Psf.Varying
