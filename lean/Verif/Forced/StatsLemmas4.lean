import Verif.Forced.StatsLemmas3

/-!
# Lemmas about the fit statistics of forced photometry: the whole function
-/

namespace Verif.Forced

open Verif Patches

variable {R : Type} [Field R] [LinearOrder R]

/-- The work arrays are zero and have the shapes of the images. -/
def Clean (ss : List (Arr R)) (bs : List (Best R)) : Prop :=
  List.Forall₂ (fun (s : Arr R) (b : Best R) => s.h = b.h ∧ s.w = b.w ∧ IsZero s) ss bs

/-- What the images contribute to a source with the given positions of unit-flux models. -/
def contribs (uis : List Nat) (src : Src R) (bs : List (Best R)) (k : Nat) : List (Acc R) :=
  (bs.zipIdx k).map (fun q => contribution q.1 q.1.mod (profile (compsOf q.1.umods uis (src.counts q.2)) (src.counts q.2))
    (src.counts q.2).sum)

theorem statsSource_ok (uis : List Nat) (src : Src R) (nextra : Nat) : ∀ (bs : List (Best R)) (k : Nat) (ss : List (Arr R))
    (a : Acc R), Clean ss bs →
    (∀ b ∈ bs, (∀ ui ∈ uis, ui < b.umods.length) ∧
      (∀ ui ∈ uis, ∀ p, (b.umods[ui]?).join = some p → 0 ≤ p.x0 ∧ 0 ≤ p.y0) ∧ b.extras.length = nextra) →
    a.extras.length = nextra →
    ∃ ss', statsSource uis src bs k ss a = .ok (ss', (contribs uis src bs k).foldl Acc.add a) ∧ Clean ss' bs := by
  intro bs
  induction bs with
  | nil =>
    intro k ss a hc _ _
    cases hc
    exact ⟨[], rfl, .nil⟩
  | cons b bs ih =>
    intro k ss a hc hb ha
    cases hc with
    | cons h0 hc =>
      rename_i s ss
      obtain ⟨b1, b2, b3⟩ := hb b List.mem_cons_self
      obtain ⟨s', e1, e2, e3, e4⟩ := statsImage_ok uis (src.counts k) b s a h0.2.2 h0.1 h0.2.1 b1 b2 (by rw [ha, b3])
      obtain ⟨ss', g1, g2⟩ := ih (k + 1) ss
        (a.add (contribution b b.mod (profile (compsOf b.umods uis (src.counts k)) (src.counts k)) (src.counts k).sum))
        hc (fun c hm => hb c (List.mem_cons_of_mem _ hm)) (by simp [Acc.add, contribution, ha, b3])
      refine ⟨s' :: ss', ?_, .cons ⟨e2, e3, e4⟩ g2⟩
      unfold statsSource
      rw [e1]
      simp only
      rw [g1]
      rfl

theorem statsSources_ok (catalog : List (Src R)) (nextra : Nat) (bs : List (Best R)) :
    ∀ (uiss : List (List Nat)) (si : Nat) (ss : List (Arr R)), Clean ss bs →
    (∀ uis ∈ uiss, ∀ b ∈ bs, (∀ ui ∈ uis, ui < b.umods.length) ∧
      (∀ ui ∈ uis, ∀ p, (b.umods[ui]?).join = some p → 0 ≤ p.x0 ∧ 0 ≤ p.y0) ∧ b.extras.length = nextra) →
    si + uiss.length ≤ catalog.length →
    ∃ as, statsSources catalog nextra bs uiss si ss = .ok as ∧ as.length = uiss.length ∧
      ∀ j uis src, uiss[j]? = some uis → catalog[si + j]? = some src →
        as[j]? = some ((contribs uis src bs 0).foldl Acc.add (Acc.zero nextra)) := by
  intro uiss
  induction uiss with
  | nil => intro si ss _ _ _; exact ⟨[], rfl, rfl, fun j uis src h => by simp at h⟩
  | cons uis uiss ih =>
    intro si ss hc hb hlen
    simp only [List.length_cons] at hlen
    have hsi : si < catalog.length := by omega
    obtain ⟨ss', e1, e2⟩ := statsSource_ok uis catalog[si] nextra bs 0 ss (Acc.zero nextra) hc
      (hb uis List.mem_cons_self) (by simp [Acc.zero])
    obtain ⟨as, g1, g2, g3⟩ := ih (si + 1) ss' e2 (fun u hu => hb u (List.mem_cons_of_mem _ hu)) (by omega)
    refine ⟨(contribs uis catalog[si] bs 0).foldl Acc.add (Acc.zero nextra) :: as, ?_,
      by simp only [List.length_cons, g2], ?_⟩
    · unfold statsSources
      rw [List.getElem?_eq_getElem hsi]
      simp only
      rw [e1]
      simp only
      rw [g1]
    · intro j u src hu hs
      cases j with
      | zero =>
        simp only [List.getElem?_cons_zero, Option.some.injEq] at hu
        rw [Nat.add_zero, List.getElem?_eq_getElem hsi, Option.some.injEq] at hs
        subst hu hs
        rfl
      | succ j =>
        rw [List.getElem?_cons_succ] at hu ⊢
        exact g3 j u src hu (by rw [← hs]; congr 1; omega)

/-! ### Positions of unit-flux models -/

omit [Field R] [LinearOrder R] in
theorem umodsFor_get : ∀ (ls : List (List (Option (Patch R)))) (k si : Nat),
    (umodsFor k ls)[si]? = (ls[si]?).map (fun l => (List.range l.length).map (fun j => k + ((ls.take si).map List.length).sum + j)) := by
  intro ls
  induction ls with
  | nil => intro k si; simp [umodsFor]
  | cons l ls ih =>
    intro k si
    cases si with
    | zero => simp [umodsFor]
    | succ si =>
      simp only [umodsFor, List.getElem?_cons_succ, List.take_succ_cons, List.map_cons, List.sum_cons]
      rw [ih]
      simp only [Nat.add_assoc]

omit [Field R] [LinearOrder R] in
theorem umodsFor_length : ∀ (ls : List (List (Option (Patch R)))) (k : Nat), (umodsFor k ls).length = ls.length := by
  intro ls
  induction ls with
  | nil => intro k; rfl
  | cons l ls ih => intro k; simp [umodsFor, ih]

theorem flatten_get {α : Type} : ∀ (L : List (List α)) (si : Nat) (l : List α), L[si]? = some l → ∀ j, j < l.length →
    L.flatten[((L.take si).map List.length).sum + j]? = l[j]? := by
  intro L
  induction L with
  | nil => intro si l h; simp at h
  | cons a L ih =>
    intro si l h j hj
    cases si with
    | zero =>
      simp only [List.getElem?_cons_zero, Option.some.injEq] at h
      subst h
      simp only [List.take_zero, List.map_nil, List.sum_nil, Nat.zero_add, List.flatten_cons]
      rw [List.getElem?_append_left hj]
    | succ si =>
      rw [List.getElem?_cons_succ] at h
      simp only [List.take_succ_cons, List.map_cons, List.sum_cons, List.flatten_cons]
      rw [List.getElem?_append_right (by omega), ← ih si l h j hj]
      congr 1
      omega

theorem range_join {α : Type} (l : List (Option α)) : (List.range l.length).map (fun j => (l[j]?).join) = l := by
  apply List.ext_getElem
  · simp
  · intro i h1 h2
    simp [List.getElem?_eq_getElem h2]

omit [Field R] [LinearOrder R] in
/-- The components of a source are its own unit-flux models with its counts. -/
theorem compsOf_flatten (L : List (List (Option (Patch R)))) (si : Nat) (l : List (Option (Patch R)))
    (h : L[si]? = some l) (cc : List R) :
    compsOf L.flatten ((List.range l.length).map (fun j => 0 + ((L.take si).map List.length).sum + j)) cc = l.zip cc := by
  unfold compsOf
  conv_rhs => rw [← range_join l]
  rw [List.zip_map_left, List.zip_map_left, List.map_map]
  apply List.map_congr_left
  intro q hq
  have hq1 := List.mem_range.mp (List.of_mem_zip (a := q.1) (b := q.2) hq).1
  simp only [Function.comp_apply, Prod.map, id, Nat.zero_add]
  rw [flatten_get L si l h q.1 hq1]

/-! ### Sums -/

omit [LinearOrder R] in
theorem foldl_add (L : List (Acc R)) : ∀ a : Acc R,
    (L.foldl Acc.add a).prochi2 = a.prochi2 + (L.map (·.prochi2)).sum ∧
    (L.foldl Acc.add a).pronpix = a.pronpix + (L.map (·.pronpix)).sum ∧
    (L.foldl Acc.add a).promasked = a.promasked + (L.map (·.promasked)).sum ∧
    (L.foldl Acc.add a).fracfluxNum = a.fracfluxNum + (L.map (·.fracfluxNum)).sum ∧
    (L.foldl Acc.add a).fracfluxDen = a.fracfluxDen + (L.map (·.fracfluxDen)).sum ∧
    (L.foldl Acc.add a).proflux = a.proflux + (L.map (·.proflux)).sum ∧
    (L.foldl Acc.add a).npix = a.npix + (L.map (·.npix)).sum ∧
    (L.foldl Acc.add a).fracinNum = a.fracinNum + (L.map (·.fracinNum)).sum ∧
    (L.foldl Acc.add a).fracinDen = a.fracinDen + (L.map (·.fracinDen)).sum := by
  induction L with
  | nil => intro a; simp
  | cons c L ih =>
    intro a
    obtain ⟨h1, h2, h3, h4, h5, h6, h7, h8, h9⟩ := ih (a.add c)
    simp only [List.foldl_cons, List.map_cons, List.sum_cons]
    rw [h1, h2, h3, h4, h5, h6, h7, h8, h9]
    simp only [Acc.add, add_assoc, and_self]

omit [LinearOrder R] in
theorem foldl_extras (n : Nat) (L : List (Acc R)) : ∀ a : Acc R, a.extras.length = n → (∀ c ∈ L, c.extras.length = n) →
    (L.foldl Acc.add a).extras.length = n ∧
    ∀ e, e < n → (L.foldl Acc.add a).extras.getD e 0 = a.extras.getD e 0 + (L.map (fun c => c.extras.getD e 0)).sum := by
  induction L with
  | nil => intro a ha _; exact ⟨ha, fun e _ => by simp⟩
  | cons c L ih =>
    intro a ha hL
    have hc := hL c List.mem_cons_self
    obtain ⟨h1, h2⟩ := ih (a.add c) (by simp [Acc.add, ha, hc]) (fun d hd => hL d (List.mem_cons_of_mem _ hd))
    refine ⟨h1, fun e he => ?_⟩
    simp only [List.foldl_cons, List.map_cons, List.sum_cons]
    rw [h2 e he, ← add_assoc]
    congr 1
    simp only [Acc.add, List.getD_eq_getElem?_getD, List.getElem?_zipWith]
    rw [List.getElem?_eq_getElem (by omega), List.getElem?_eq_getElem (by omega)]
    rfl

/-! ### The sky -/

omit [LinearOrder R] in
theorem subSkies_ok : ∀ bs : List (Best R), (∀ b ∈ bs, b.skyval.isSome) →
    ∃ vs, subSkies bs = (bs.map (addSky (-1)), .ok vs) ∧ vs.map some = bs.map (·.skyval) := by
  intro bs
  induction bs with
  | nil => intro _; exact ⟨[], rfl, rfl⟩
  | cons b bs ih =>
    intro h
    obtain ⟨vs, h1, h2⟩ := ih (fun c hc => h c (List.mem_cons_of_mem _ hc))
    obtain ⟨v, hv⟩ := Option.isSome_iff_exists.mp (h b List.mem_cons_self)
    refine ⟨v :: vs, ?_, ?_⟩
    · unfold subSkies
      rw [hv, h1]
      rfl
    · simp [h2, hv]

omit [LinearOrder R] in
theorem addSky_back (b : Best R) : addSky 1 (addSky (-1) b) = b := by
  unfold addSky
  congr 1
  funext r c
  ring

omit [LinearOrder R] in
theorem shiftUm_at (x0 y0 : Int) (um : Option (Patch R)) (x y : Int) :
    unitAt (shiftUm x0 y0 um) x y = unitAt um (x + x0) (y + y0) := by
  cases um with
  | none => rfl
  | some p =>
    unfold shiftUm unitAt
    simp only [Option.map_some]
    by_cases h : p.patch.isNone = true
    · rw [if_pos h]
      have : p.patch = none := by simpa using h
      rw [at_none p this, at_none p this]
    · rw [if_neg h]
      unfold Patch.at
      simp only
      cases hA : p.patch with
      | none => rfl
      | some A =>
      simp only
      have e1 : (x : Int) - (p.x0 - x0) = x + x0 - p.x0 := by omega
      have e2 : (y : Int) - (p.y0 - y0) = y + y0 - p.y0 := by omega
      rw [e1, e2]
      apply if_congr _ rfl rfl
      constructor <;> (rintro ⟨_, _, _, _⟩; refine ⟨?_, ?_, ?_, ?_⟩ <;> omega)

end Verif.Forced
