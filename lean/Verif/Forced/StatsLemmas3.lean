import Verif.Forced.StatsLemmas2

/-!
# Lemmas about the fit statistics of forced photometry: images and sources
-/

namespace Verif.Forced

open Verif Patches

variable {R : Type} [Field R] [LinearOrder R]

omit [LinearOrder R] in
theorem zipWith_zero (l : List R) (n : Nat) (h : n = l.length) (m : List R) (hm : m.length = n) (h0 : ∀ v ∈ m, v = 0) :
    List.zipWith (· + ·) l m = l := by
  subst h
  induction l generalizing m with
  | nil => simp
  | cons a l ih =>
    cases m with
    | nil => simp at hm
    | cons v m =>
      simp only [List.zipWith_cons_cons]
      rw [h0 v List.mem_cons_self, add_zero, ih m (fun w hw => h0 w (List.mem_cons_of_mem _ hw)) (by simpa using hm)]

/-- An image in which the source is not seen contributes nothing. -/
theorem contribution_unseen (b : Best R) (m P : Nat → Nat → R) (sc : R) (a : Acc R) (hs : ¬ Seen b P)
    (he : a.extras.length = b.extras.length) : a.add (contribution b m P sc) = a := by
  have h0 : ∀ y x, y < b.h → x < b.w → 0 < b.ie y x → P y x = 0 := by
    intro y x hy hx hi
    by_contra hn
    exact hs ⟨y, hy, x, hx, hn, hi⟩
  have hz : ∀ G : Nat → Nat → R, (∀ y x, P y x = 0 → G y x = 0) →
      pixSum b.h b.w (fun y x => if 0 < b.ie y x then G y x else 0) = 0 := by
    intro G hG
    apply pixSum_zero
    intro y x hy hx
    by_cases hi : 0 < b.ie y x
    · rw [if_pos hi, hG y x (h0 y x hy hx hi)]
    · rw [if_neg hi]
  have hn : pixSum b.h b.w (fun y x => if P y x ≠ 0 ∧ 0 < b.ie y x then 1 else 0) = 0 := by
    apply pixSum_zero
    intro y x hy hx
    rw [if_neg (fun h => h.1 (h0 y x hy hx h.2))]
  unfold Acc.add contribution
  rw [if_neg hs, if_neg hs, if_neg hs, if_neg hs, hn]
  rw [hz (fun y x => |P y x| * b.chi y x ^ 2) (fun y x h => by simp only [h]; simp [abs0])]
  rw [hz (fun y x => |P y x|) (fun y x h => by simp only [h, abs0])]
  rw [hz (fun y x => |P y x| / |sc|) (fun y x h => by simp only [h]; simp [abs0])]
  rw [hz (fun y x => |(m y x - P y x * sc) / b.scale| * |P y x|) (fun y x h => by simp only [h]; simp [abs0])]
  rw [zipWith_zero a.extras b.extras.length he.symm _ (by simp) (by
    intro v hv
    obtain ⟨e, _, rfl⟩ := List.mem_map.mp hv
    exact hz (fun y x => |P y x| * e y x) (fun y x h => by simp only [h]; simp [abs0]))]
  simp

/-- Spec: the components of a source in an image, (unit-flux model, counts). -/
def compsOf (umods : List (Option (Patch R))) (uis : List Nat) (cc : List R) : List (Option (Patch R) × R) :=
  (uis.zip cc).map (fun q => ((umods[q.1]?).join, q.2))

/-- Spec: the profile of a source with the given components and counts. -/
def profile (comps : List (Option (Patch R) × R)) (cc : List R) (y x : Nat) : R := compsAt comps x y / cc.sum

theorem statsImage_ok (uis : List Nat) (cc : List R) (b : Best R) (s : Arr R) (a : Acc R) (hz : IsZero s)
    (hh : s.h = b.h) (hw : s.w = b.w) (hlen : ∀ ui ∈ uis, ui < b.umods.length)
    (hpos : ∀ ui ∈ uis, ∀ p, (b.umods[ui]?).join = some p → 0 ≤ p.x0 ∧ 0 ≤ p.y0)
    (he : a.extras.length = b.extras.length) :
    ∃ s', statsImage uis cc b s a =
        .ok (s', a.add (contribution b b.mod (profile (compsOf b.umods uis cc) cc) cc.sum)) ∧
      s'.h = b.h ∧ s'.w = b.w ∧ IsZero s' := by
  unfold statsImage
  simp only
  by_cases hsc : cc.sum = 0
  · rw [if_pos hsc]
    refine ⟨s, ?_, hh, hw, hz⟩
    rw [contribution_unseen _ _ _ _ _ _ he]
    rintro ⟨y, _, x, _, h, _⟩
    exact h (by unfold profile; rw [hsc, div_zero])
  rw [if_neg hsc]
  have hmem : ∀ q ∈ uis.zip cc, q.1 ∈ uis := fun q hq => (List.of_mem_zip (a := q.1) (b := q.2) hq).1
  obtain ⟨b', s1, e1, e2, e3, e4, e5, _, e7⟩ := addComps_ok b.umods (uis.zip cc) none s
    (fun q hq _ => hlen _ (hmem q hq)) (fun q hq => hpos _ (hmem q hq)) (fun e h => by simp at h)
  rw [e1]
  have hC : ∀ y x : Nat, y < b.h → x < b.w → s1.px y x = compsAt (compsOf b.umods uis cc) x y := by
    intro y x hy hx
    rw [e4 y x (by omega) (by omega), hz y x (by omega) (by omega), zero_add]
    rfl
  have hcov : ∀ (x y : Int), (∀ q ∈ compsOf b.umods uis cc, q.2 ≠ 0 → ∀ p, q.1 = some p → ¬ p.covers x y) →
      compsAt (compsOf b.umods uis cc) x y = 0 := fun x y h => compsAt_zero _ x y h
  cases b' with
  | none =>
    have hall : ∀ x y : Int, compsAt (compsOf b.umods uis cc) x y = 0 := by
      intro x y
      apply hcov
      intro q hq hne p hp
      obtain ⟨r, hr, rfl⟩ := List.mem_map.mp hq
      obtain ⟨e', h1, _⟩ := e7 r hr hne p hp
      simp at h1
    refine ⟨s1, ?_, by omega, by omega, ?_⟩
    · simp only
      rw [contribution_unseen _ _ _ _ _ _ he]
      rintro ⟨y, _, x, _, h, _⟩
      exact h (by unfold profile; rw [hall, zero_div])
    · intro y x hy hx
      rw [hC y x (by omega) (by omega), hall]
  | some e =>
    have hout : ∀ y x : Nat, y < b.h → x < b.w →
        ¬ (InAxis b.h e.2.2.1 e.2.2.2 y ∧ InAxis b.w e.1 e.2.1 x) → compsAt (compsOf b.umods uis cc) x y = 0 := by
      intro y x hy hx hn
      apply hcov
      intro q hq hne p hp hc
      obtain ⟨r, hr, rfl⟩ := List.mem_map.mp hq
      obtain ⟨e', h1, h2⟩ := e7 r hr hne p hp
      injection h1 with h1
      subst h1
      obtain ⟨c1, c2, c3, c4⟩ := covers_shape p x y hc
      obtain ⟨d1, d2, d3, d4⟩ := h2
      obtain ⟨f1, f2⟩ := e5 _ rfl
      exact hn ⟨inAxis_of b.h _ _ y f2 (by omega) (by omega) hy, inAxis_of b.w _ _ x f1 (by omega) (by omega) hx⟩
    obtain ⟨xlo, xhi, ylo, yhi⟩ := e
    obtain ⟨sh, sw, spx⟩ := s1
    simp only at e2 e3 e4 hC hout
    have e2' : sh = b.h := by omega
    have e3' : sw = b.w := by omega
    subst e2' e3'
    simp only
    have hP : ∀ y x : Nat, y < b.h → x < b.w → (mapSlice ⟨b.h, b.w, spx⟩ ylo yhi xlo xhi (· / cc.sum)).px y x =
        profile (compsOf b.umods uis cc) cc y x := by
      intro y x hy hx
      rw [mapSlice_px]
      unfold profile
      simp only
      by_cases hin : InAxis b.h ylo yhi y ∧ InAxis b.w xlo xhi x
      · rw [if_pos hin, hC y x hy hx]
      · rw [if_neg hin, hC y x hy hx, hout y x hy hx hin, zero_div]
    have hPout : ∀ y x : Nat, y < b.h → x < b.w → ¬ (InAxis b.h ylo yhi y ∧ InAxis b.w xlo xhi x) →
        profile (compsOf b.umods uis cc) cc y x = 0 := by
      intro y x hy hx hin
      unfold profile
      rw [hout y x hy hx hin, zero_div]
    have hzero : IsZero (mapSlice (mapSlice ⟨b.h, b.w, spx⟩ ylo yhi xlo xhi (· / cc.sum)) ylo yhi xlo xhi
        (fun _ => 0)) := by
      intro y x hy hx
      rw [mapSlice_px]
      change (if InAxis b.h ylo yhi y ∧ InAxis b.w xlo xhi x then (0 : R)
        else (mapSlice ⟨b.h, b.w, spx⟩ ylo yhi xlo xhi (· / cc.sum)).px y x) = 0
      by_cases hin : InAxis b.h ylo yhi y ∧ InAxis b.w xlo xhi x
      · rw [if_pos hin]
      · rw [if_neg hin, hP y x hy hx, hPout y x hy hx hin]
    by_cases hs : Seen b (profile (compsOf b.umods uis cc) cc)
    · refine ⟨_, ?_, rfl, rfl, hzero⟩
      rw [if_neg]
      · have := addStats_eq b (xlo, xhi, ylo, yhi) (profile (compsOf b.umods uis cc) cc)
          (mapSlice ⟨b.h, b.w, spx⟩ ylo yhi xlo xhi (· / cc.sum)).px cc.sum a hP hPout hs
        simp only at this
        rw [← this]
        rfl
      · intro hemp
        obtain ⟨y, hy, x, hx, h1, h2⟩ := hs
        have hin : InAxis b.h ylo yhi y ∧ InAxis b.w xlo xhi x := by
          by_contra hn
          exact h1 (hPout y x hy hx hn)
        rw [List.isEmpty_iff] at hemp
        have hm := (mem_used ((mapSlice ⟨b.h, b.w, spx⟩ ylo yhi xlo xhi (· / cc.sum)).slice (some ylo) (some yhi) (some xlo) (some xhi))
          ((Arr.mk b.h b.w b.ie).slice (some ylo) (some yhi) (some xlo) (some xhi))
          (y - (Arr.axis b.h (some ylo) (some yhi)).1, x - (Arr.axis b.w (some xlo) (some xhi)).1)).2
        rw [hemp] at hm
        simp only [List.not_mem_nil, imp_false] at hm
        obtain ⟨⟨i1, i2⟩, i3, i4⟩ := hin
        apply hm
        have j1 : (Arr.axis b.h (some ylo) (some yhi)).1 + (y - (Arr.axis b.h (some ylo) (some yhi)).1) = y := by omega
        have j2 : (Arr.axis b.w (some xlo) (some xhi)).1 + (x - (Arr.axis b.w (some xlo) (some xhi)).1) = x := by omega
        refine ⟨?_, ?_, ?_, ?_⟩
        · show y - _ < (Arr.axis b.h (some ylo) (some yhi)).2
          omega
        · show x - _ < (Arr.axis b.w (some xlo) (some xhi)).2
          omega
        · show (mapSlice ⟨b.h, b.w, spx⟩ ylo yhi xlo xhi (· / cc.sum)).px
            ((Arr.axis b.h (some ylo) (some yhi)).1 + (y - (Arr.axis b.h (some ylo) (some yhi)).1))
            ((Arr.axis b.w (some xlo) (some xhi)).1 + (x - (Arr.axis b.w (some xlo) (some xhi)).1)) ≠ 0
          rw [j1, j2, hP y x hy hx]
          exact h1
        · show b.ie ((Arr.axis b.h (some ylo) (some yhi)).1 + (y - (Arr.axis b.h (some ylo) (some yhi)).1))
            ((Arr.axis b.w (some xlo) (some xhi)).1 + (x - (Arr.axis b.w (some xlo) (some xhi)).1)) > 0
          rw [j1, j2]
          exact h2
    · refine ⟨_, ?_, rfl, rfl, hzero⟩
      rw [contribution_unseen _ _ _ _ _ hs he, if_pos]
      rw [List.isEmpty_iff, List.eq_nil_iff_forall_not_mem]
      intro q hq
      rw [mem_used] at hq
      obtain ⟨q1, q2, q3, q4⟩ := hq
      change q.1 < (Arr.axis b.h (some ylo) (some yhi)).2 at q1
      change q.2 < (Arr.axis b.w (some xlo) (some xhi)).2 at q2
      have l1 := axis_le b.h ylo yhi
      have l2 := axis_le b.w xlo xhi
      apply hs
      refine ⟨(Arr.axis b.h (some ylo) (some yhi)).1 + q.1, by omega, (Arr.axis b.w (some xlo) (some xhi)).1 + q.2,
        by omega, ?_, q4⟩
      rw [← hP _ _ (by omega) (by omega)]
      exact q3

end Verif.Forced
