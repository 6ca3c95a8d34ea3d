import Verif.Gal.CompositeSpec
import Verif.Gal.FreeLemmas
import Verif.Patch.Props
import Mathlib.Algebra.Module.Basic
import Mathlib.Tactic.Linarith
import Mathlib.Tactic.FieldSimp
import Mathlib.Tactic.Positivity

/-! Lemmas for C113. -/

namespace Verif.Gal

open Verif.Patches (Patch)
open Verif.Mog (Mix Comp Mat)

variable {R : Type} [Field R]

section
variable {N : Type} [AddCommGroup N] [Module R N]

theorem ofMix_weigh (g : Kernel R N) (m : Mix R) (f : R) : ofMix g (weigh m f) = f • ofMix g m := by
  induction m with
  | nil => simp [ofMix, weigh]
  | cons c m ih =>
    unfold ofMix weigh at ih ⊢
    rw [List.map_cons, List.map_cons, List.sum_cons, ih, List.map_cons, List.sum_cons, smul_add, smul_smul, mul_comm]

theorem ofMix_append (g : Kernel R N) (a b : Mix R) : ofMix g (a ++ b) = ofMix g a + ofMix g b := by
  unfold ofMix; rw [List.map_append, List.sum_append]

theorem total_append (a b : Mix R) : Mog.total (a ++ b) = Mog.total a + Mog.total b := by
  unfold Mog.total; rw [List.map_append, List.sum_append]

theorem total_weigh (m : Mix R) (f : R) : Mog.total (weigh m f) = Mog.total m * f := by
  induction m with
  | nil => simp [Mog.total, weigh]
  | cons c m ih =>
    unfold Mog.total weigh at ih ⊢
    rw [List.map_cons, List.map_cons, List.sum_cons, ih, List.map_cons, List.sum_cons, add_mul]

theorem normalize_one (m : Mix R) (h : Mog.total m = 1) : Mog.normalize m = m := by
  unfold Mog.normalize
  rw [h]
  conv_rhs => rw [← List.map_id m]
  refine List.map_congr_left (fun c _ => ?_)
  simp

theorem total_affine (m : Mix R) (s : R × R) (t : Mat R) : Mog.total (Mog.applyAffine m s t) = Mog.total m := by
  unfold Mog.total Mog.applyAffine
  rw [List.map_map]; rfl

theorem total_shear (m : Mix R) (t : Mat R) : Mog.total (Mog.applyShear m t) = Mog.total m := by
  unfold Mog.total Mog.applyShear
  rw [List.map_map]; rfl

/-- The two parts put together. -/
theorem join_parts [LinearOrder R] (f : R) (dev exp : Mix R) (hd : Mog.total dev = 1) (he : Mog.total exp = 1) (h0 : 0 ≤ f)
    (h1 : f ≤ 1) (h01 : (0 : R) < 1) : ∃ m, joinMix (fixedParts f dev exp) = .ok m ∧ Mog.total m = 1 ∧
      (∀ {N : Type} [AddCommGroup N] [Module R N] (g : Kernel R N),
        ofMix g m = f • ofMix g dev + (1 - f) • ofMix g exp) := by
  unfold fixedParts
  rcases lt_or_eq_of_le h0 with h0 | h0
  · rcases lt_or_eq_of_le h1 with h1 | h1
    · rw [if_pos h0, if_pos h1]
      have ht : Mog.total (weigh dev f ++ weigh exp (1 - f)) = 1 := by
        rw [total_append, total_weigh, total_weigh, hd, he]; ring
      refine ⟨_, rfl, ?_, ?_⟩
      · unfold Mog.add; rw [normalize_one _ ht, ht]
      · intro N _ _ g
        unfold Mog.add
        rw [normalize_one _ ht, ofMix_append, ofMix_weigh, ofMix_weigh]
    · subst h1
      rw [if_pos h01, if_neg (lt_irrefl _)]
      refine ⟨_, rfl, by rw [total_weigh, hd, one_mul], fun g => ?_⟩
      rw [ofMix_weigh, sub_self, zero_smul, add_zero]
  · subst h0
    rw [if_neg (lt_irrefl _), if_pos h01]
    refine ⟨_, rfl, by rw [total_weigh, he, sub_zero, one_mul], fun g => ?_⟩
    rw [ofMix_weigh, zero_smul, zero_add]

/-- Convolution with a mixture as a kernel. -/
theorem ofMix_convolve (g : Kernel R N) (b : Mix R) : ∃ g' : Kernel R N, ∀ a, ofMix g (Mog.convolve a b) = ofMix g' a := by
  induction b with
  | nil =>
    refine ⟨fun _ _ _ _ _ _ => 0, fun a => ?_⟩
    simp [ofMix, Mog.convolve]
  | cons x b ih =>
    obtain ⟨g', h⟩ := ih
    refine ⟨fun p q r s t u => x.amp • g (p + x.mx) (q + x.my) (r + x.vxx) (s + x.vxy) (t + x.vyx) (u + x.vyy) + g' p q r s t u,
      fun a => ?_⟩
    have : Mog.convolve a (x :: b) = Mog.convolveOne a x ++ Mog.convolve a b := by simp [Mog.convolve]
    rw [this, ofMix_append, h]
    unfold ofMix Mog.convolveOne
    rw [List.map_map, ← List.sum_map_add]
    congr 1
    refine List.map_congr_left (fun c _ => ?_)
    simp only [Function.comp, smul_add, smul_smul]

end

/-! ### Patches -/

theorem at_mul (p : Patch R) (c : R) (x y : Int) : (p.mul c).at x y = p.at x y * c := by
  unfold Patches.Patch.mul Patches.Patch.at
  cases p.patch with
  | none => simp
  | some A =>
    simp only [Option.map_some, Arr.map]
    split <;> simp

theorem hasImage_mul (p : Patch R) (c : R) (h : HasImage (some p)) : HasImage (some (p.mul c)) := by
  rintro q ⟨⟩
  obtain ⟨A, hA⟩ := h p rfl
  exact ⟨A.map (· * c), by simp [Patches.Patch.mul, hA]⟩

theorem addPatches_pixel (a b : Option (Patch R)) (ha : HasImage a) (hb : HasImage b) :
    ∃ r, Patches.addPatches a b = .ok r ∧ (∀ x y, pixel r x y = pixel a x y + pixel b x y) := by
  cases b with
  | none => exact ⟨a, by cases a <;> rfl, fun x y => by simp [pixel]⟩
  | some q =>
    cases a with
    | none => exact ⟨some q, rfl, fun x y => by simp [pixel]⟩
    | some p =>
      obtain ⟨A, hA⟩ := ha p rfl
      obtain ⟨B, hB⟩ := hb q rfl
      obtain ⟨r, h1, h2, -⟩ := (Patches.C23_add_sub p q A B hA hB).1
      exact ⟨some r, by simp [Patches.addPatches, h1, Except.map], h2⟩

end Verif.Gal
