import Verif.Fpfit.Recover2

/-!
# Groups of sources (C150): lemmas

Splitting a catalog into the sources with a property of their number and the others.
-/

namespace Verif.Fpfit

open Verif Patches Forced Linmod Finset

variable {R M : Type}

/-- The number of parameters of a source. -/
def nOf (s : Source R) : Nat := (s.parts.map (fun b => b.thawed.length)).sum

theorem numParams_cons (s : Source R) (cat : List (Source R)) : numParams (s :: cat) = (if s.thawed then nOf s else 0) + numParams cat := by
  unfold numParams nOf
  by_cases h : s.thawed = true
  · rw [List.filter_cons_of_pos (by simp [h]), List.map_cons, List.sum_cons, if_pos h]
  · rw [List.filter_cons_of_neg (by simp [h]), if_neg h, Nat.zero_add]

/-- The parameters of the sources that are kept. -/
def sub (keep : Nat → Bool) : List (Source R) → List R → List R
  | [], _ => []
  | s :: cat, p => if s.thawed then (if keep s.id then p.take (nOf s) else []) ++ sub keep cat (p.drop (nOf s)) else sub keep cat p

/-- The sources that are kept. -/
def part (keep : Nat → Bool) (cat : List (Source R)) : List (Source R) := cat.filter (fun s => keep s.id)

theorem setBands_append (flux : String → R) (b : List R) : ∀ (bs : List String) (a : List R), a.length = bs.length →
    setBands flux bs (a ++ b) = ((setBands flux bs a).1, b) := by
  intro bs
  induction bs generalizing flux with
  | nil => intro a h; rw [List.length_nil, List.length_eq_zero_iff] at h; subst h; rfl
  | cons c bs ih =>
    intro a h
    cases a with
    | nil => simp at h
    | cons v a =>
      rw [List.cons_append]
      exact ih _ a (by simpa using h)

theorem setParts_append (b : List R) : ∀ (bs : List (Bright R)) (a : List R), a.length = (bs.map (fun b => b.thawed.length)).sum →
    setParts bs (a ++ b) = ((setParts bs a).1, b) := by
  intro bs
  induction bs with
  | nil => intro a h; rw [List.map_nil, List.sum_nil, List.length_eq_zero_iff] at h; subst h; rfl
  | cons c bs ih =>
    intro a h
    rw [List.map_cons, List.sum_cons] at h
    obtain ⟨a1, a2, rfl, h1⟩ : ∃ a1 a2, a = a1 ++ a2 ∧ a1.length = c.thawed.length :=
      ⟨a.take c.thawed.length, a.drop c.thawed.length, (List.take_append_drop _ _).symm, by rw [List.length_take]; omega⟩
    rw [List.length_append] at h
    rw [List.append_assoc]
    unfold setParts
    rw [setBands_append _ _ _ _ h1, setBands_append _ _ _ _ h1]
    dsimp only
    rw [ih a2 (by omega)]

theorem setParams_thawed (s : Source R) (cat : List (Source R)) (a b : List R) (hs : s.thawed = true) (h : a.length = nOf s) :
    setParams (s :: cat) (a ++ b) = { s with parts := (setParts s.parts a).1 } :: setParams cat b := by
  rw [setParams, if_pos hs, setParts_append b _ a h]

theorem setParams_frozen (s : Source R) (cat : List (Source R)) (p : List R) (hs : ¬ s.thawed = true) :
    setParams (s :: cat) p = s :: setParams cat p := by
  rw [setParams, if_neg hs]

theorem sub_thawed (keep : Nat → Bool) (s : Source R) (cat : List (Source R)) (a b : List R) (hs : s.thawed = true) (h : a.length = nOf s) :
    sub keep (s :: cat) (a ++ b) = (if keep s.id then a else []) ++ sub keep cat b := by
  rw [sub, if_pos hs, List.take_left' h, List.drop_left' h]

theorem sub_frozen (keep : Nat → Bool) (s : Source R) (cat : List (Source R)) (p : List R) (hs : ¬ s.thawed = true) :
    sub keep (s :: cat) p = sub keep cat p := by rw [sub, if_neg hs]

/-- Parameters of the first source and of the rest. -/
theorem split_first (s : Source R) (cat : List (Source R)) (p : List R) (hs : s.thawed = true) (h : p.length = numParams (s :: cat)) :
    ∃ a b, p = a ++ b ∧ a.length = nOf s ∧ b.length = numParams cat := by
  rw [numParams_cons, if_pos hs] at h
  exact ⟨p.take (nOf s), p.drop (nOf s), (List.take_append_drop _ _).symm, by rw [List.length_take]; omega, by rw [List.length_drop]; omega⟩

theorem part_cons (keep : Nat → Bool) (s : Source R) (cat : List (Source R)) :
    part keep (s :: cat) = if keep s.id then s :: part keep cat else part keep cat := by
  unfold part
  rw [List.filter_cons]

theorem sub_length (keep : Nat → Bool) : ∀ (cat : List (Source R)) (p : List R), p.length = numParams cat →
    (sub keep cat p).length = numParams (part keep cat) := by
  intro cat
  induction cat with
  | nil => intro p _; rfl
  | cons s cat ih =>
    intro p h
    rw [part_cons]
    by_cases hs : s.thawed = true
    · obtain ⟨a, b, rfl, h1, h2⟩ := split_first s cat p hs h
      rw [sub_thawed _ _ _ _ _ hs h1, List.length_append, ih b h2]
      by_cases hk : keep s.id = true
      · rw [if_pos hk, if_pos hk, numParams_cons, if_pos hs, h1]
      · rw [if_neg hk, if_neg hk, List.length_nil, Nat.zero_add]
    · rw [numParams_cons, if_neg hs, Nat.zero_add] at h
      rw [sub_frozen _ _ _ _ hs, ih p h]
      by_cases hk : keep s.id = true
      · rw [if_pos hk, numParams_cons, if_neg hs, Nat.zero_add]
      · rw [if_neg hk]

/-- Setting the parameters of all sources sets those of the sources that are kept. -/
theorem setParams_part (keep : Nat → Bool) : ∀ (cat : List (Source R)) (p : List R), p.length = numParams cat →
    part keep (setParams cat p) = setParams (part keep cat) (sub keep cat p) := by
  intro cat
  induction cat with
  | nil => intro p _; rfl
  | cons s cat ih =>
    intro p h
    rw [part_cons keep s]
    by_cases hs : s.thawed = true
    · obtain ⟨a, b, rfl, h1, h2⟩ := split_first s cat p hs h
      rw [sub_thawed _ _ _ _ _ hs h1, setParams_thawed _ _ _ _ hs h1, part_cons, ih b h2]
      by_cases hk : keep s.id = true
      · rw [if_pos hk, if_pos hk, if_pos hk, setParams_thawed _ _ _ _ hs h1]
      · rw [if_neg hk, if_neg hk, if_neg hk, List.nil_append]
    · rw [numParams_cons, if_neg hs, Nat.zero_add] at h
      rw [sub_frozen _ _ _ _ hs, setParams_frozen _ _ _ hs, part_cons, ih p h]
      by_cases hk : keep s.id = true
      · rw [if_pos hk, if_pos hk, setParams_frozen _ _ _ hs]
      · rw [if_neg hk, if_neg hk]

/-- Any parameters of the two groups are those of the whole catalog for some parameters. -/
theorem merge (keep : Nat → Bool) : ∀ (cat : List (Source R)) (a b : List R), a.length = numParams (part keep cat) →
    b.length = numParams (part (fun i => !keep i) cat) →
    ∃ p, p.length = numParams cat ∧ sub keep cat p = a ∧ sub (fun i => !keep i) cat p = b := by
  intro cat
  induction cat with
  | nil =>
    intro a b ha hb
    have ha : a.length = 0 := ha
    have hb : b.length = 0 := hb
    rw [List.length_eq_zero_iff] at ha hb
    exact ⟨[], rfl, ha.symm, hb.symm⟩
  | cons s cat ih =>
    intro a b ha hb
    rw [part_cons] at ha hb
    by_cases hs : s.thawed = true
    · by_cases hk : keep s.id = true
      · rw [if_pos hk] at ha
        rw [if_neg (by simp [hk])] at hb
        obtain ⟨a1, a2, rfl, h1, h2⟩ := split_first s _ a hs ha
        obtain ⟨p, p1, p2, p3⟩ := ih a2 b h2 hb
        refine ⟨a1 ++ p, by rw [List.length_append, numParams_cons, if_pos hs, h1, p1], ?_, ?_⟩
        · rw [sub_thawed _ _ _ _ _ hs h1, if_pos hk, p2]
        · rw [sub_thawed _ _ _ _ _ hs h1, if_neg (by simp [hk]), p3, List.nil_append]
      · rw [if_neg hk] at ha
        rw [if_pos (by simp [hk])] at hb
        obtain ⟨b1, b2, rfl, h1, h2⟩ := split_first s _ b hs hb
        obtain ⟨p, p1, p2, p3⟩ := ih a b2 ha h2
        refine ⟨b1 ++ p, by rw [List.length_append, numParams_cons, if_pos hs, h1, p1], ?_, ?_⟩
        · rw [sub_thawed _ _ _ _ _ hs h1, if_neg hk, p2, List.nil_append]
        · rw [sub_thawed _ _ _ _ _ hs h1, if_pos (by simp [hk]), p3]
    · have ha' : a.length = numParams (part keep cat) := by
        by_cases hk : keep s.id = true
        · rwa [if_pos hk, numParams_cons, if_neg hs, Nat.zero_add] at ha
        · rwa [if_neg hk] at ha
      have hb' : b.length = numParams (part (fun i => !keep i) cat) := by
        by_cases hk : keep s.id = true
        · rwa [if_neg (by simp [hk])] at hb
        · rwa [if_pos (by simp [hk]), numParams_cons, if_neg hs, Nat.zero_add] at hb
      obtain ⟨p, p1, p2, p3⟩ := ih a b ha' hb'
      exact ⟨p, by rw [numParams_cons, if_neg hs, Nat.zero_add, p1], by rw [sub_frozen _ _ _ _ hs, p2], by rw [sub_frozen _ _ _ _ hs, p3]⟩

variable [Field R] [LinearOrder R]

/-- What the sources add to a pixel. -/
def light (t : Tim R M) (minsb : R) (srcs : List (Source R)) (y x : Nat) : R := sumAt x y (srcs.map (modelOf t.W t.img minsb)).flatten

theorem light_part (keep : Nat → Bool) (t : Tim R M) (minsb : R) (y x : Nat) : ∀ (srcs : List (Source R)),
    light t minsb srcs y x = light t minsb (part keep srcs) y x + light t minsb (part (fun i => !keep i) srcs) y x := by
  intro srcs
  induction srcs with
  | nil => simp [light, part, sumAt]
  | cons s l ih =>
    have hc : ∀ l', light t minsb (s :: l') y x = sumAt x y (modelOf t.W t.img minsb s) + light t minsb l' y x := by
      intro l'
      unfold light
      rw [List.map_cons, List.flatten_cons, sumAt_append]
    rw [part_cons, part_cons, hc, ih]
    by_cases hk : keep s.id = true
    · rw [if_pos hk, if_neg (by simp [hk]), hc]; ring
    · rw [if_neg hk, if_pos (by simp [hk]), hc]; ring

theorem pixel_light (minsb : R) (tims : List (Tim R M)) (srcs : List (Source R)) (i y x : Nat) (t : Tim R M) (ht : tims[i]? = some t)
    (hy : y < t.data.h) (hx : x < t.data.w) : pixel minsb (tims, srcs) i y x = t.sky + light t minsb srcs y x := by
  obtain ⟨A, a1, _, _, a4⟩ := modelImage_ok t.W t.img minsb true srcs
  unfold pixel
  dsimp only
  rw [ht]
  dsimp only
  rw [a1]
  dsimp only
  rw [a4 y x hy hx]
  rfl

/-- The chi value of a pixel. -/
def chiAt (minsb : R) (tims : List (Tim R M)) (srcs : List (Source R)) (π : Σ _ : Nat, Σ _ : Nat, Nat) : R :=
  match tims[π.1]? with
  | none => 0
  | some t => (t.data.px π.2.1 π.2.2 - pixel minsb (tims, srcs) π.1 π.2.1 π.2.2) * t.ie.px π.2.1 π.2.2

/-- The log-likelihood of a tractor is the sum over its pixels. -/
theorem logLike_pixels (minsb : R) (tims : List (Tim R M)) (srcs : List (Source R)) (hs : ∀ t ∈ tims, t.ie.h = t.data.h ∧ t.ie.w = t.data.w) :
    logLike minsb tims srcs = .ok (-(1 / 2) * ∑ π ∈ pixels tims, chiAt minsb tims srcs π * chiAt minsb tims srcs π) := by
  obtain ⟨As, h1, h2⟩ := chiImages_sum minsb srcs tims (fun i => ∑ y ∈ range (hgt tims i), ∑ x ∈ range (wid tims i),
      chiAt minsb tims srcs ⟨i, y, x⟩ * chiAt minsb tims srcs ⟨i, y, x⟩) (by
    intro i t ht
    obtain ⟨A, a1, a2, a3, a4⟩ := modelImage_ok t.W t.img minsb true srcs
    obtain ⟨g1, g2⟩ := hs t (List.mem_of_getElem? ht)
    have ah : A.h = t.data.h := a2
    have aw : A.w = t.data.w := a3
    have e1 : bc (· - ·) t.data A = .ok ⟨t.data.h, t.data.w, fun r c => t.data.px r c - A.px r c⟩ := by
      unfold bc bcDim
      rw [ah, aw, if_pos rfl, if_pos rfl]
      dsimp only
      simp only [if_true]
    have e2 : bc (· * ·) (⟨t.data.h, t.data.w, fun r c => t.data.px r c - A.px r c⟩ : Arr R) t.ie =
        .ok ⟨t.data.h, t.data.w, fun r c => (t.data.px r c - A.px r c) * t.ie.px r c⟩ := by
      unfold bc bcDim
      rw [g1, g2, if_pos rfl, if_pos rfl]
      dsimp only
      simp only [if_true]
    refine ⟨_, by unfold chiImage; rw [a1]; dsimp only; rw [e1]; dsimp only; rw [e2], ?_⟩
    have hh : hgt tims i = t.data.h := by unfold hgt; rw [ht]; rfl
    have hw : wid tims i = t.data.w := by unfold wid; rw [ht]; rfl
    rw [hh, hw]
    refine sumSq_of _ _ _ (fun y x => chiAt minsb tims srcs ⟨i, y, x⟩) rfl rfl (fun y x hy hx => ?_)
    dsimp only
    unfold chiAt
    dsimp only
    rw [ht]
    dsimp only
    rw [pixel_light minsb tims srcs i y x t ht hy hx, a4 y x hy hx]
    rfl)
  unfold logLike
  rw [h1]
  dsimp only
  rw [h2]
  unfold pixels
  rw [sum_sigma]
  congr 2
  refine sum_congr rfl (fun i _ => ?_)
  rw [sum_sigma]

end Verif.Fpfit
