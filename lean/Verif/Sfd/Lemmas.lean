import Verif.Sfd.Model
import Verif.Sfd.Spec
import Mathlib.Tactic.Ring
import Mathlib.Tactic.Linarith
import Mathlib.Tactic.Positivity
import Mathlib.Tactic.NormNum

namespace Verif.Sfd

open Spec

variable {R : Type} [Field R] [LinearOrder R]

theorem index_nat (n i : Nat) (h : i < n) : index n (i : Int) = .ok i := by
  unfold index
  have h1 : (0 : Int) ≤ i := by omega
  have h2 : (i : Int) < n := by omega
  simp [h2]

omit [Field R] [LinearOrder R] in
theorem get_nat (m : Map R) (j i : Nat) (hj : j < m.H) (hi : i < m.W) : m.get (j : Int) (i : Int) = .ok (m.px j i) := by
  unfold Map.get
  rw [index_nat _ _ hj, index_nat _ _ hi]; rfl

theorem clip_succ (n i : Nat) (h : i < n) : clip n ((i : Int) + 1) = ((min (i + 1) (n - 1) : Nat) : Int) := by
  unfold clip; omega

section ord
variable [IsStrictOrderedRing R]

omit [IsStrictOrderedRing R] in
theorem clip01_self (f : R) (h0 : 0 ≤ f) (h1 : f ≤ 1) : clip01 f = f := by
  unfold clip01; rw [max_eq_left h0, min_eq_left h1]

theorem floor_nat (floor : R → Int) (hf : IsFloor floor) (x : R) (n : Nat) (h0 : 0 ≤ x) (h1 : x < n) :
    ∃ i : Nat, floor x = i ∧ i < n ∧ (i : R) ≤ x ∧ x < i + 1 := by
  have ⟨ha, hb⟩ := hf x
  have hz : 0 ≤ floor x := by
    by_contra hc
    have : floor x + 1 ≤ 0 := by omega
    have : ((floor x + 1 : Int) : R) ≤ 0 := by exact_mod_cast this
    push_cast at this; linarith
  obtain ⟨i, hi⟩ := Int.eq_ofNat_of_zero_le hz
  rw [hi] at ha hb
  refine ⟨i, hi, ?_, by exact_mod_cast ha, by exact_mod_cast hb⟩
  have : (i : R) < n := lt_of_le_of_lt (by exact_mod_cast ha) h1
  exact_mod_cast this

theorem interp_nat (floor : R → Int) (hf : IsFloor floor) (m : Map R) (x y : R) (hx0 : 0 ≤ x) (hx1 : x < m.W) (hy0 : 0 ≤ y) (hy1 : y < m.H) :
    ∃ i j : Nat, i < m.W ∧ j < m.H ∧ (i : R) ≤ x ∧ x < i + 1 ∧ (j : R) ≤ y ∧ y < j + 1 ∧
      interp floor m x y = .ok (mix (y - j) (mix (x - i) (m.px j i) (m.px j (min (i + 1) (m.W - 1))))
        (mix (x - i) (m.px (min (j + 1) (m.H - 1)) i) (m.px (min (j + 1) (m.H - 1)) (min (i + 1) (m.W - 1))))) := by
  obtain ⟨i, hi, hiW, hi0, hi1⟩ := floor_nat floor hf x m.W hx0 hx1
  obtain ⟨j, hj, hjH, hj0, hj1⟩ := floor_nat floor hf y m.H hy0 hy1
  refine ⟨i, j, hiW, hjH, hi0, hi1, hj0, hj1, ?_⟩
  unfold interp
  rw [hi, hj]
  simp only [clip_succ _ _ hiW, clip_succ _ _ hjH]
  rw [get_nat m j i hjH hiW, get_nat m j _ hjH (by omega), get_nat m _ i (by omega) hiW, get_nat m _ _ (by omega) (by omega)]
  rw [Int.cast_natCast, Int.cast_natCast, clip01_self _ (by linarith) (by linarith), clip01_self _ (by linarith) (by linarith)]
  rfl

theorem mix_nonneg (f a b : R) (hf0 : 0 ≤ f) (hf1 : f ≤ 1) (ha : 0 ≤ a) (hb : 0 ≤ b) : 0 ≤ mix f a b := by
  unfold mix
  have : 0 ≤ 1 - f := by linarith
  dsimp only
  split
  · exact ha
  · split
    · exact hb
    · positivity

theorem mix_among (f a b : R) (hf0 : 0 ≤ f) (hf1 : f ≤ 1) (ha : 0 ≤ a) (hb : 0 ≤ b) (h : ¬ (a = 0 ∧ b = 0)) :
    AmongPositive [a, b] (mix f a b) := by
  unfold mix AmongPositive
  have hg : 0 ≤ 1 - f := by linarith
  dsimp only
  by_cases hb0 : b = 0
  · rw [if_pos hb0]
    have : a ≠ 0 := fun e => h ⟨e, hb0⟩
    exact ⟨⟨a, by simp, lt_of_le_of_ne ha (Ne.symm this), le_refl _⟩, ⟨a, by simp, le_refl _⟩⟩
  · rw [if_neg hb0]
    have hbp : 0 < b := lt_of_le_of_ne hb (Ne.symm hb0)
    by_cases ha0 : a = 0
    · rw [if_pos ha0]
      exact ⟨⟨b, by simp, hbp, le_refl _⟩, ⟨b, by simp, le_refl _⟩⟩
    · rw [if_neg ha0]
      have hap : 0 < a := lt_of_le_of_ne ha (Ne.symm ha0)
      rcases le_total a b with hab | hab
      · refine ⟨⟨a, by simp, hap, ?_⟩, ⟨b, by simp, ?_⟩⟩
        · nlinarith [mul_le_mul_of_nonneg_left hab hf0]
        · nlinarith [mul_le_mul_of_nonneg_left hab hg]
      · refine ⟨⟨b, by simp, hbp, ?_⟩, ⟨a, by simp, ?_⟩⟩
        · nlinarith [mul_le_mul_of_nonneg_left hab hg]
        · nlinarith [mul_le_mul_of_nonneg_left hab hf0]

theorem mix_zero (f a b : R) (hf0 : 0 ≤ f) (hf1 : f ≤ 1) (ha : 0 ≤ a) (hb : 0 ≤ b) : mix f a b = 0 ↔ a = 0 ∧ b = 0 := by
  constructor
  · intro h
    by_contra hc
    obtain ⟨⟨p, _, hp, hpv⟩, _⟩ := mix_among f a b hf0 hf1 ha hb hc
    rw [h] at hpv; exact absurd hpv (not_le.mpr hp)
  · rintro ⟨rfl, rfl⟩; unfold mix; simp

omit [IsStrictOrderedRing R] in
theorem mix_pos (f a b : R) (ha : 0 < a) (hb : 0 < b) : mix f a b = (1 - f) * a + f * b := by
  unfold mix; dsimp only; rw [if_neg hb.ne', if_neg ha.ne']

omit [IsStrictOrderedRing R] in
theorem mix_left (a b : R) (ha : a ≠ 0) : mix 0 a b = a := by
  unfold mix; dsimp only
  split
  · rfl
  · simp

theorem mix2_among (f g a b c d : R) (hf0 : 0 ≤ f) (hf1 : f ≤ 1) (hg0 : 0 ≤ g) (hg1 : g ≤ 1) (ha : 0 ≤ a) (hb : 0 ≤ b) (hc : 0 ≤ c) (hd : 0 ≤ d)
    (h : ∃ p ∈ [a, b, c, d], p ≠ 0) : AmongPositive [a, b, c, d] (mix g (mix f a b) (mix f c d)) := by
  have h1 := mix_nonneg f a b hf0 hf1 ha hb
  have h2 := mix_nonneg f c d hf0 hf1 hc hd
  have hne : ¬ (mix f a b = 0 ∧ mix f c d = 0) := by
    rw [mix_zero f a b hf0 hf1 ha hb, mix_zero f c d hf0 hf1 hc hd]
    rintro ⟨⟨rfl, rfl⟩, rfl, rfl⟩
    obtain ⟨p, hp, hp0⟩ := h
    simp at hp; exact hp0 hp
  obtain ⟨⟨p, hp, hp0, hpv⟩, ⟨q, hq, hqv⟩⟩ := mix_among g _ _ hg0 hg1 h1 h2 hne
  have sub1 : ∀ z ∈ [a, b], z ∈ [a, b, c, d] := by intro z hz; simp at hz ⊢; tauto
  have sub2 : ∀ z ∈ [c, d], z ∈ [a, b, c, d] := by intro z hz; simp at hz ⊢; tauto
  constructor
  · simp only [List.mem_cons, List.not_mem_nil, or_false] at hp
    rcases hp with rfl | rfl
    · obtain ⟨⟨r, hr, hr0, hrv⟩, _⟩ := mix_among f a b hf0 hf1 ha hb (by rw [← mix_zero f a b hf0 hf1 ha hb]; exact hp0.ne')
      exact ⟨r, sub1 r hr, hr0, le_trans hrv hpv⟩
    · obtain ⟨⟨r, hr, hr0, hrv⟩, _⟩ := mix_among f c d hf0 hf1 hc hd (by rw [← mix_zero f c d hf0 hf1 hc hd]; exact hp0.ne')
      exact ⟨r, sub2 r hr, hr0, le_trans hrv hpv⟩
  · have hv : 0 < mix g (mix f a b) (mix f c d) := lt_of_lt_of_le hp0 hpv
    simp only [List.mem_cons, List.not_mem_nil, or_false] at hq
    rcases hq with rfl | rfl
    · obtain ⟨_, ⟨r, hr, hrv⟩⟩ := mix_among f a b hf0 hf1 ha hb (by
        rw [← mix_zero f a b hf0 hf1 ha hb]; exact (lt_of_lt_of_le hv hqv).ne')
      exact ⟨r, sub1 r hr, le_trans hqv hrv⟩
    · obtain ⟨_, ⟨r, hr, hrv⟩⟩ := mix_among f c d hf0 hf1 hc hd (by
        rw [← mix_zero f c d hf0 hf1 hc hd]; exact (lt_of_lt_of_le hv hqv).ne')
      exact ⟨r, sub2 r hr, le_trans hqv hrv⟩

end ord

/-- One source in one hemisphere. -/
def one (floor : R → Int) (wcs : R × R → R × R) (m : Map R) (lb : R × R) (v : R) : Prop :=
  (1 / 2 ≤ (wcs lb).1 ∧ (wcs lb).1 ≤ m.W + 1 / 2 ∧ 1 / 2 ≤ (wcs lb).2 ∧ (wcs lb).2 ≤ m.H + 1 / 2) ∧
    interp floor m ((wcs lb).1 - 1) ((wcs lb).2 - 1) = .ok v

theorem interpAll_ok (floor : R → Int) (m : Map R) (l : List (R × R)) (vs : List R) :
    interpAll floor m l = .ok vs ↔ List.Forall₂ (fun p v => interp floor m p.1 p.2 = .ok v) l vs := by
  induction l generalizing vs with
  | nil => 
    cases vs <;> simp [interpAll]
  | cons p l ih =>
    unfold interpAll
    cases h : interp floor m p.1 p.2 with
    | error e => 
      constructor
      · intro hc; exact absurd hc (by intro h2; cases h2)
      · intro hc; cases hc with | cons h1 _ => rw [h] at h1; cases h1
    | ok v =>
      cases h2 : interpAll floor m l with
      | error e =>
        constructor
        · intro hc; exact absurd hc (by intro h2; cases h2)
        · intro hc; cases hc with | cons _ h1 => rw [(ih _).2 h1] at h2; cases h2
      | ok ws =>
        constructor
        · intro hc
          have : v :: ws = vs := by simpa [bind, Except.bind] using hc
          rw [← this]; exact .cons h ((ih _).1 h2)
        · intro hc
          cases hc with
          | cons h1 h3 =>
            rw [(ih _).2 h3] at h2
            rw [h] at h1
            cases h1; cases h2; rfl

omit [Field R] [LinearOrder R] in
theorem scatter_none (a : List R) (cut : List Bool) (h : ∀ c ∈ cut, c = false) : scatter a cut [] = a := by
  induction cut generalizing a with
  | nil => cases a <;> rfl
  | cons c cut ih =>
    have hc := h c (by simp); subst hc
    cases a with
    | nil => rfl
    | cons x xs => show x :: scatter xs cut [] = _; rw [ih xs (fun c hc => h c (by simp [hc]))]

theorem select_none {α : Type} (a : List α) (cut : List Bool) (h : ∀ c ∈ cut, c = false) : select a cut = [] := by
  induction cut generalizing a with
  | nil => cases a <;> rfl
  | cons c cut ih =>
    have hc := h c (by simp); subst hc
    cases a with
    | nil => rfl
    | cons x xs => show (if false = true then _ else select xs cut) = _; simp [ih xs (fun c hc => h c (by simp [hc]))]

theorem hemisphere_ok (floor : R → Int) (wcs : R × R → R × R) (m : Map R) (lb : List (R × R)) (cut : List Bool) (ebv out : List R) :
    hemisphere floor wcs m lb cut ebv = .ok out ↔ ∃ vs, List.Forall₂ (one floor wcs m) (select lb cut) vs ∧ out = scatter ebv cut vs := by
  unfold hemisphere
  by_cases hn : cut.all (fun c => !c) = true
  · rw [if_pos hn]
    have hn' : ∀ c ∈ cut, c = false := by simpa using hn
    rw [select_none lb cut hn']
    constructor
    · intro h; cases h; exact ⟨[], .nil, (scatter_none _ _ hn').symm⟩
    · rintro ⟨vs, h1, h2⟩
      cases h1
      rw [h2, scatter_none _ _ hn']
  · rw [if_neg hn]
    dsimp only
    have hone : ∀ l : List (R × R), ∀ vs : List R, List.Forall₂ (one floor wcs m) l vs ↔
        ((l.map wcs).all (fun p => decide (1 / 2 ≤ p.1) && decide (p.1 ≤ m.W + 1 / 2) && decide (1 / 2 ≤ p.2) && decide (p.2 ≤ m.H + 1 / 2)) = true ∧
          interpAll floor m ((l.map wcs).map (fun p => (p.1 - 1, p.2 - 1))) = .ok vs) := by
      intro l vs
      rw [interpAll_ok]
      induction l generalizing vs with
      | nil => cases vs <;> simp
      | cons p l ih =>
        cases vs with
        | nil => simp
        | cons v vs =>
          simp only [List.forall₂_cons, List.map_cons, List.all_cons, Bool.and_eq_true, decide_eq_true_eq, ih, one]
          tauto
    constructor
    · intro h
      by_cases hb : (((select lb cut).map wcs).all (fun p => decide (1 / 2 ≤ p.1) && decide (p.1 ≤ m.W + 1 / 2) && decide (1 / 2 ≤ p.2) && decide (p.2 ≤ m.H + 1 / 2))) = true
      · rw [if_pos hb] at h
        cases hi : interpAll floor m (((select lb cut).map wcs).map (fun p => (p.1 - 1, p.2 - 1))) with
        | error e => rw [hi] at h; cases h
        | ok vs =>
          rw [hi] at h
          exact ⟨vs, (hone _ _).2 ⟨hb, hi⟩, by cases h; rfl⟩
      · rw [if_neg hb] at h; cases h
    · rintro ⟨vs, h1, h2⟩
      obtain ⟨hb, hi⟩ := (hone _ _).1 h1
      rw [if_pos hb, hi, h2]

/-- The reddening of one source. -/
def point (floor : R → Int) (s : SFD R) (lb : R × R) (v : R) : Prop :=
  if 0 ≤ lb.2 then one floor s.northWcs s.north lb v else one floor s.southWcs s.south lb v

theorem ebv_lb (floor : R → Int) (s : SFD R) (lb : List (R × R)) (out : List R) :
    (∃ vsN vsS, List.Forall₂ (one floor s.northWcs s.north) (select lb (lb.map (fun p => decide (0 ≤ p.2)))) vsN ∧
      List.Forall₂ (one floor s.southWcs s.south) (select lb ((lb.map (fun p => decide (0 ≤ p.2))).map (fun c => !c))) vsS ∧
      out = scatter (scatter (lb.map (fun _ => 0)) (lb.map (fun p => decide (0 ≤ p.2))) vsN) ((lb.map (fun p => decide (0 ≤ p.2))).map (fun c => !c)) vsS)
    ↔ List.Forall₂ (point floor s) lb out := by
  induction lb generalizing out with
  | nil =>
    constructor
    · rintro ⟨vsN, vsS, h1, h2, h3⟩
      rw [h3]
      simp [scatter]
    · intro h; cases h; exact ⟨[], [], .nil, .nil, rfl⟩
  | cons p l ih =>
    by_cases hp : 0 ≤ p.2
    · simp only [List.map_cons, hp, decide_true, Bool.not_true, select, if_true, Bool.false_eq_true, if_false]
      constructor
      · rintro ⟨vsN, vsS, h1, h2, h3⟩
        cases h1 with
        | cons h4 h5 =>
          rename_i v vs
          simp only [scatter] at h3
          rw [h3]
          exact .cons (by unfold point; rw [if_pos hp]; exact h4) ((ih _).1 ⟨vs, vsS, h5, h2, rfl⟩)
      · intro h
        cases h with
        | cons h4 h5 =>
          obtain ⟨vs, vsS, h6, h7, h8⟩ := (ih _).2 h5
          unfold point at h4; rw [if_pos hp] at h4
          exact ⟨_ :: vs, vsS, .cons h4 h6, h7, by simp only [scatter]; rw [← h8]⟩
    · simp only [List.map_cons, hp, decide_false, Bool.not_false, select, if_true, Bool.false_eq_true, if_false]
      constructor
      · rintro ⟨vsN, vsS, h1, h2, h3⟩
        cases h2 with
        | cons h4 h5 =>
          rename_i v vs
          simp only [scatter] at h3
          rw [h3]
          exact .cons (by unfold point; rw [if_neg hp]; exact h4) ((ih _).1 ⟨vsN, vs, h1, h5, rfl⟩)
      · intro h
        cases h with
        | cons h4 h5 =>
          obtain ⟨vsN, vs, h6, h7, h8⟩ := (ih _).2 h5
          unfold point at h4; rw [if_neg hp] at h4
          exact ⟨vsN, _ :: vs, h6, .cons h4 h7, by simp only [scatter]; rw [← h8]⟩

theorem ebv_ok (floor : R → Int) (toLB : R × R → R × R) (s : SFD R) (radec : List (R × R)) (out : List R) :
    s.ebv floor toLB radec = .ok out ↔ List.Forall₂ (fun p v => point floor s (toLB p) v) radec out := by
  have : List.Forall₂ (fun p v => point floor s (toLB p) v) radec out ↔ List.Forall₂ (point floor s) (radec.map toLB) out := by
    rw [List.forall₂_map_left_iff]
  rw [this, ← ebv_lb]
  unfold SFD.ebv
  dsimp only
  constructor
  · intro h
    cases hN : hemisphere floor s.northWcs s.north (radec.map toLB) ((radec.map toLB).map (fun p => decide (0 ≤ p.2)))
      ((radec.map toLB).map (fun _ => 0)) with
    | error e => rw [hN] at h; cases h
    | ok o =>
      rw [hN] at h
      obtain ⟨vsN, h1, h2⟩ := (hemisphere_ok ..).1 hN
      obtain ⟨vsS, h3, h4⟩ := (hemisphere_ok ..).1 h
      exact ⟨vsN, vsS, h1, h3, by rw [h4, h2]⟩
  · rintro ⟨vsN, vsS, h1, h2, h3⟩
    rw [(hemisphere_ok ..).2 ⟨vsN, h1, rfl⟩]
    exact (hemisphere_ok ..).2 ⟨vsS, h2, h3⟩

end Verif.Sfd
