import Verif.Approx.RingLemmas

/-!
# Lemmas: the loop over rings
-/

namespace Verif.Approx

set_option linter.unusedSimpArgs false

variable {R : Type} [Zero R] [LinearOrder R]

omit [Zero R] in
theorem vis_inv {J : Job R} {y x : Int} {n : Nat} (h : J.Vis y x) (hn : J.far y x = n + 1) :
    J.inside y x ∧ ∃ y' x', J.Vis y' x' ∧ J.far y' x' = n ∧
      (n = 0 ∨ (n : Int) ≤ J.minradius ∨ J.minval ≤ J.val y' x') ∧ Adjacent y' x' y x := by
  cases h with
  | centre => simp [Job.far, far] at hn
  | @step y' x' _ _ h hp hi ha hf =>
    have : J.far y' x' = n := by unfold Job.far at hn ⊢; omega
    refine ⟨hi, y', x', h, this, ?_, ha⟩
    unfold Job.far at this
    rw [this] at hp; exact hp

omit [Zero R] in
theorem vis_inside {J : Job R} (hc : J.inside J.yc J.xc) {y x : Int} (h : J.Vis y x) : J.inside y x := by
  cases h with
  | centre => exact hc
  | step _ _ hi _ _ => exact hi

omit [Zero R] in
theorem vis_below {J : Job R} {y x : Int} (h : J.Vis y x) : ∀ n, n ≤ J.far y x → ∃ y' x', J.Vis y' x' ∧ J.far y' x' = n := by
  induction h with
  | centre => intro n hn; simp [Job.far, far] at hn; exact ⟨_, _, .centre, by simp [Job.far, far, hn]⟩
  | @step y x y' x' h hp hi ha hf ih =>
    intro n hn
    by_cases he : n = J.far y' x'
    · exact ⟨y', x', .step h hp hi ha hf, he.symm⟩
    · exact ih n (by unfold Job.far at *; omega)

/-- `n` is the last ring, of those before `rad`, in which a side has pixels. -/
structure Upto (S : Int → Prop) (n rad : Int) : Prop where
  lo : 0 ≤ n
  hi : n < rad
  mem : 1 ≤ n → S n
  max : ∀ k, 1 ≤ k → k < rad → S k → k ≤ n

omit [Zero R] [LinearOrder R] in
theorem Upto.yes {S : Int → Prop} {n rad : Int} (h : Upto S n rad) (hr : S rad) : Upto S rad (rad + 1) :=
  ⟨by have := h.lo; have := h.hi; omega, by omega, fun _ => hr, fun k _ _ _ => by omega⟩

omit [Zero R] [LinearOrder R] in
theorem Upto.no {S : Int → Prop} {n rad : Int} (h : Upto S n rad) (hr : ¬ S rad) : Upto S n (rad + 1) := by
  refine ⟨h.lo, by have := h.hi; omega, h.mem, fun k h1 h2 h3 => ?_⟩
  by_cases hk : k = rad
  · subst hk; exact absurd h3 hr
  · exact h.max k h1 (by omega) h3

def Job.top (J : Job R) (k : Int) : Prop := ∃ x, J.Vis (J.yc + k) x ∧ ((x - J.xc).natAbs : Int) ≤ k
def Job.bottom (J : Job R) (k : Int) : Prop := ∃ x, J.Vis (J.yc - k) x ∧ ((x - J.xc).natAbs : Int) ≤ k
def Job.left (J : Job R) (k : Int) : Prop := ∃ y, J.Vis y (J.xc - k) ∧ ((y - J.yc).natAbs : Int) < k
def Job.right (J : Job R) (k : Int) : Prop := ∃ y, J.Vis y (J.xc + k) ∧ ((y - J.yc).natAbs : Int) < k

/-- The marks are the pixels reached in ring `rad`, the result holds those before it. -/
structure Inv (J : Job R) (rad : Int) (d : Marks) (res : Int → Int → R) : Prop where
  t : ∀ x, d.t x = true ↔ J.Vis (J.yc + rad) x ∧ ((x - J.xc).natAbs : Int) ≤ rad
  b : ∀ x, d.b x = true ↔ J.Vis (J.yc - rad) x ∧ ((x - J.xc).natAbs : Int) ≤ rad
  l : ∀ y, d.l y = true ↔ J.Vis y (J.xc - rad) ∧ ((y - J.yc).natAbs : Int) < rad
  r : ∀ y, d.r y = true ↔ J.Vis y (J.xc + rad) ∧ ((y - J.yc).natAbs : Int) < rad
  res : ∀ y x, (J.Vis y x → (J.far y x : Int) < rad → res y x = J.val y x) ∧
    (¬ (J.Vis y x ∧ (J.far y x : Int) < rad) → res y x = 0)

theorem Inv.good {J : Job R} (hc : J.inside J.yc J.xc) {rad : Int} {d : Marks} {res : Int → Int → R}
    (h : Inv J rad d res) : Good J rad d :=
  ⟨fun x hx => ⟨vis_inside hc ((h.t x).mp hx).1, ((h.t x).mp hx).2⟩,
    fun x hx => ⟨vis_inside hc ((h.b x).mp hx).1, ((h.b x).mp hx).2⟩,
    fun x hx => ⟨vis_inside hc ((h.l x).mp hx).1, ((h.l x).mp hx).2⟩,
    fun x hx => ⟨vis_inside hc ((h.r x).mp hx).1, ((h.r x).mp hx).2⟩⟩

theorem Inv.active {J : Job R} {rad : Int} (h1 : 1 ≤ rad) {d : Marks} {res : Int → Int → R}
    (h : Inv J rad d res) (y x : Int) : Active J rad d y x ↔ J.Vis y x ∧ (J.far y x : Int) = rad := by
  unfold Active
  rw [h.t, h.b, h.l, h.r]
  constructor
  · rintro (((⟨⟨h, h'⟩, rfl⟩ | ⟨⟨h, h'⟩, rfl⟩) | ⟨⟨h, h'⟩, rfl⟩) | ⟨⟨h, h'⟩, rfl⟩) <;>
      exact ⟨h, by unfold Job.far far; omega⟩
  · rintro ⟨hv, hf⟩
    unfold Job.far far at hf
    by_cases h1 : y = J.yc + rad
    · subst h1; exact .inl (.inl (.inl ⟨⟨hv, by omega⟩, rfl⟩))
    by_cases h2 : y = J.yc - rad
    · subst h2; exact .inl (.inl (.inr ⟨⟨hv, by omega⟩, rfl⟩))
    by_cases h3 : x = J.xc - rad
    · subst h3; exact .inl (.inr ⟨⟨hv, by omega⟩, rfl⟩)
    by_cases h4 : x = J.xc + rad
    · subst h4; exact .inr ⟨⟨hv, by omega⟩, rfl⟩
    omega

omit [Zero R] in
/-- A pixel of the next ring is reached when it is in the box and beside a pixel of this ring that is passed. -/
theorem vis_next {J : Job R} {rad : Int} (h1 : 1 ≤ rad) {y x : Int} (hf : (J.far y x : Int) = rad + 1) :
    J.Vis y x ↔ J.inside y x ∧ ∃ y' x', (J.Vis y' x' ∧ (J.far y' x' : Int) = rad) ∧ J.pass rad y' x' ∧ Adjacent y' x' y x := by
  constructor
  · intro h
    obtain ⟨hi, y', x', hv, hf', hp, ha⟩ := vis_inv (n := rad.toNat) h (by omega)
    refine ⟨hi, y', x', ⟨hv, by omega⟩, ?_, ha⟩
    rcases hp with hp | hp | hp
    · omega
    · left; omega
    · right; exact hp
  · rintro ⟨hi, y', x', ⟨hv, hf'⟩, hp, ha⟩
    refine .step hv ?_ hi ha (by unfold Job.far at hf hf'; omega)
    rcases hp with hp | hp
    · right; left; unfold Job.far at hf'; omega
    · right; right; exact hp

theorem Inv.next {J : Job R} (hc : J.inside J.yc J.xc) {rad : Int} (h1 : 1 ≤ rad) {d : Marks} {res : Int → Int → R} (e : Ext)
    (h : Inv J rad d res) : Inv J (rad + 1) (ring J rad d res e).1.next (ring J rad d res e).1.res := by
  obtain ⟨hd, -⟩ := ring_ok J rad d res e h1 (h.good hc)
  have hd := hd.congr (h.active h1)
  generalize (ring J rad d res e).1 = s at hd ⊢
  refine ⟨?_, ?_, ?_, ?_, ?_⟩
  · intro x
    rw [hd.t]
    simp only [Marks.clear, Bool.false_eq_true, false_or]
    constructor
    · rintro ⟨hi, y', x', ⟨hv, hf⟩, hp, ha⟩
      have hf2 : (J.far (J.yc + rad + 1) x : Int) = rad + 1 := by
        unfold Job.far far at hf ⊢; unfold Adjacent at ha; omega
      have := (vis_next h1 hf2).mpr ⟨hi, y', x', ⟨hv, hf⟩, hp, ha⟩
      rw [show J.yc + (rad + 1) = J.yc + rad + 1 by omega]
      exact ⟨this, by unfold Job.far far at hf2; omega⟩
    · rintro ⟨hv, hx⟩
      have hf2 : (J.far (J.yc + rad + 1) x : Int) = rad + 1 := by unfold Job.far far; omega
      rw [show J.yc + (rad + 1) = J.yc + rad + 1 by omega] at hv
      exact (vis_next h1 hf2).mp hv
  · intro x
    rw [hd.b]
    simp only [Marks.clear, Bool.false_eq_true, false_or]
    rw [show J.yc - (rad + 1) = J.yc - rad - 1 by omega]
    constructor
    · rintro ⟨hi, y', x', ⟨hv, hf⟩, hp, ha⟩
      have hf2 : (J.far (J.yc - rad - 1) x : Int) = rad + 1 := by
        unfold Job.far far at hf ⊢; unfold Adjacent at ha; omega
      exact ⟨(vis_next h1 hf2).mpr ⟨hi, y', x', ⟨hv, hf⟩, hp, ha⟩, by unfold Job.far far at hf2; omega⟩
    · rintro ⟨hv, hx⟩
      have hf2 : (J.far (J.yc - rad - 1) x : Int) = rad + 1 := by unfold Job.far far; omega
      exact (vis_next h1 hf2).mp hv
  · intro y
    rw [hd.l]
    simp only [Marks.clear, Bool.false_eq_true, false_or]
    rw [show J.xc - (rad + 1) = J.xc - rad - 1 by omega]
    constructor
    · rintro ⟨hi, hy, h3⟩
      have hf2 : (J.far y (J.xc - rad - 1) : Int) = rad + 1 := by unfold Job.far far; omega
      exact ⟨(vis_next h1 hf2).mpr ⟨hi, h3⟩, by omega⟩
    · rintro ⟨hv, hx⟩
      have hf2 : (J.far y (J.xc - rad - 1) : Int) = rad + 1 := by unfold Job.far far; omega
      have := (vis_next h1 hf2).mp hv
      exact ⟨this.1, by omega, this.2⟩
  · intro y
    rw [hd.r]
    simp only [Marks.clear, Bool.false_eq_true, false_or]
    rw [show J.xc + (rad + 1) = J.xc + rad + 1 by omega]
    constructor
    · rintro ⟨hi, hy, h3⟩
      have hf2 : (J.far y (J.xc + rad + 1) : Int) = rad + 1 := by unfold Job.far far; omega
      exact ⟨(vis_next h1 hf2).mpr ⟨hi, h3⟩, by omega⟩
    · rintro ⟨hv, hx⟩
      have hf2 : (J.far y (J.xc + rad + 1) : Int) = rad + 1 := by unfold Job.far far; omega
      have := (vis_next h1 hf2).mp hv
      exact ⟨this.1, by omega, this.2⟩
  · intro y x
    obtain ⟨ha, hb⟩ := hd.res y x
    obtain ⟨hr1, hr2⟩ := h.res y x
    constructor
    · intro hv hf
      by_cases he : (J.far y x : Int) = rad
      · exact ha ⟨hv, he⟩
      · rw [hb (fun h => he h.2)]; exact hr1 hv (by omega)
    · intro hn
      rw [hb (fun h => hn ⟨h.1, by omega⟩)]
      exact hr2 (fun h => hn ⟨h.1, by omega⟩)

/-- The extents. -/
structure Exts (J : Job R) (rad : Int) (e : Ext) : Prop where
  t : Upto J.top (e.y1 - (J.yc - J.bx.y0)) rad
  b : Upto J.bottom (J.yc - J.bx.y0 - e.y0) rad
  l : Upto J.left (J.xc - J.bx.x0 - e.x0) rad
  r : Upto J.right (e.x1 - (J.xc - J.bx.x0)) rad

theorem Exts.next {J : Job R} (hc : J.inside J.yc J.xc) {rad : Int} (h1 : 1 ≤ rad) {d : Marks} {res : Int → Int → R} {e : Ext}
    (h : Inv J rad d res) (he : Exts J rad e) : Exts J (rad + 1) (ring J rad d res e).2 := by
  obtain ⟨-, t1, t2, b1, b2, l1, l2, r1, r2⟩ := ring_ok J rad d res e h1 (h.good hc)
  generalize (ring J rad d res e).2 = e' at *
  have et : (∃ x, d.t x = true) ↔ J.top rad := exists_congr h.t
  have eb : (∃ x, d.b x = true) ↔ J.bottom rad := exists_congr h.b
  have el : (∃ x, d.l x = true) ↔ J.left rad := exists_congr h.l
  have er : (∃ x, d.r x = true) ↔ J.right rad := exists_congr h.r
  rw [et] at t1 t2
  rw [eb] at b1 b2
  rw [el] at l1 l2
  rw [er] at r1 r2
  refine ⟨?_, ?_, ?_, ?_⟩
  · by_cases hs : J.top rad
    · rw [t1 hs, show J.yc + rad - J.bx.y0 - (J.yc - J.bx.y0) = rad by omega]; exact he.t.yes hs
    · rw [t2 hs]; exact he.t.no hs
  · by_cases hs : J.bottom rad
    · rw [b1 hs, show J.yc - J.bx.y0 - (J.yc - rad - J.bx.y0) = rad by omega]; exact he.b.yes hs
    · rw [b2 hs]; exact he.b.no hs
  · by_cases hs : J.left rad
    · rw [l1 hs, show J.xc - J.bx.x0 - (J.xc - rad - J.bx.x0) = rad by omega]; exact he.l.yes hs
    · rw [l2 hs]; exact he.l.no hs
  · by_cases hs : J.right rad
    · rw [r1 hs, show J.xc + rad - J.bx.x0 - (J.xc - J.bx.x0) = rad by omega]; exact he.r.yes hs
    · rw [r2 hs]; exact he.r.no hs

/-- The ring after the last: nothing of it, or of any later one, is reached. -/
structure Done (J : Job R) (res : Int → Int → R) (e : Ext) : Prop where
  hit : ∀ y x, J.Vis y x → res y x = J.val y x
  miss : ∀ y x, ¬ J.Vis y x → res y x = 0
  ext : ∃ rad, (∀ y x, J.Vis y x → (J.far y x : Int) < rad) ∧ Exts J rad e

theorem rings_ok {J : Job R} (hc : J.inside J.yc J.xc) : ∀ (n : Nat) (rad : Int) (d : Marks) (res : Int → Int → R) (e : Ext),
    1 ≤ rad → Inv J rad d res → Exts J rad e → 0 < n → J.bx.x1 - J.bx.x0 + (J.bx.y1 - J.bx.y0) < rad + n →
    ∃ res' e', rings J n rad d res e = some (res', e') ∧ Done J res' e'
  | 0, _, _, _, _, _, _, _, h0, _ => absurd h0 (by omega)
  | n + 1, rad, d, res, e, h1, hi, he, _, hn => by
    have hi' := hi.next hc h1 e
    have he' := he.next hc h1 hi
    obtain ⟨hd, -⟩ := ring_ok J rad d res e h1 (hi.good hc)
    have hd := hd.congr (hi.active h1)
    have hrun : rings J (n + 1) rad d res e =
      if (ring J rad d res e).1.any then rings J n (rad + 1) (ring J rad d res e).1.next (ring J rad d res e).1.res (ring J rad d res e).2
      else some ((ring J rad d res e).1.res, (ring J rad d res e).2) := rfl
    rw [hrun]
    by_cases ha : (ring J rad d res e).1.any = true
    · rw [if_pos ha]
      have hn0 : 0 < n := by
        rcases hd.any.mp ha with h | ⟨y, x, hv, hf⟩
        · simp at h
        · obtain ⟨⟨a1, a2⟩, a3, a4⟩ := vis_inside hc hv
          obtain ⟨⟨b1, b2⟩, b3, b4⟩ := hc
          unfold Job.far far at hf
          omega
      exact rings_ok hc n (rad + 1) _ _ _ (by omega) hi' he' hn0 (by omega)
    · rw [if_neg ha]
      have hno : ∀ y x, J.Vis y x → (J.far y x : Int) < rad := by
        intro y x hv
        by_contra hf
        obtain ⟨y', x', hv', hf'⟩ := vis_below hv rad.toNat (by omega)
        exact ha (hd.any.mpr (.inr ⟨y', x', hv', by omega⟩))
      refine ⟨_, _, rfl, ?_, ?_, rad + 1, fun y x hv => by have := hno y x hv; omega, he'⟩
      · intro y x hv
        exact (hi'.res y x).1 hv (by have := hno y x hv; omega)
      · intro y x hv
        exact (hi'.res y x).2 (fun h => hv h.1)

omit [Zero R] in
theorem vis_first {J : Job R} {y x : Int} (hf : J.far y x = 1) : J.Vis y x ↔ J.inside y x := by
  constructor
  · intro h; exact (vis_inv (n := 0) h hf).1
  · intro h
    refine .step .centre (.inl (by simp [far])) h ?_ ?_
    · unfold Job.far far at hf; unfold Adjacent; omega
    · unfold Job.far at hf; rw [hf]; simp [far]

theorem first_ok {J : Job R} (hc : J.inside J.yc J.xc) :
    Inv J 1 (firstMarks J) (fun y x => if y = J.yc ∧ x = J.xc then J.val J.yc J.xc else 0) := by
  obtain ⟨⟨h1, h2⟩, h3, h4⟩ := hc
  refine ⟨?_, ?_, ?_, ?_, ?_⟩
  · intro x
    have : (J.Vis (J.yc + 1) x ∧ ((x - J.xc).natAbs : Int) ≤ 1) ↔ (J.inside (J.yc + 1) x ∧ ((x - J.xc).natAbs : Int) ≤ 1) := by
      refine and_congr_left (fun h => vis_first ?_); unfold Job.far far; omega
    rw [this]
    unfold firstMarks
    simp only [Inside]
    split_ifs <;> simp only [St.markL, St.markR, St.markT, St.markB, mark_iff, Marks.clear, Bool.false_eq_true, or_false, false_iff] <;> omega
  · intro x
    have : (J.Vis (J.yc - 1) x ∧ ((x - J.xc).natAbs : Int) ≤ 1) ↔ (J.inside (J.yc - 1) x ∧ ((x - J.xc).natAbs : Int) ≤ 1) := by
      refine and_congr_left (fun h => vis_first ?_); unfold Job.far far; omega
    rw [this]
    unfold firstMarks
    simp only [Inside]
    split_ifs <;> simp only [St.markL, St.markR, St.markT, St.markB, mark_iff, Marks.clear, Bool.false_eq_true, or_false, false_iff] <;> omega
  · intro y
    have : (J.Vis y (J.xc - 1) ∧ ((y - J.yc).natAbs : Int) < 1) ↔ (J.inside y (J.xc - 1) ∧ ((y - J.yc).natAbs : Int) < 1) := by
      refine and_congr_left (fun h => vis_first ?_); unfold Job.far far; omega
    rw [this]
    unfold firstMarks
    simp only [Inside]
    split_ifs <;> simp only [St.markL, St.markR, St.markT, St.markB, mark_iff, Marks.clear, Bool.false_eq_true, or_false, false_iff] <;> omega
  · intro y
    have : (J.Vis y (J.xc + 1) ∧ ((y - J.yc).natAbs : Int) < 1) ↔ (J.inside y (J.xc + 1) ∧ ((y - J.yc).natAbs : Int) < 1) := by
      refine and_congr_left (fun h => vis_first ?_); unfold Job.far far; omega
    rw [this]
    unfold firstMarks
    simp only [Inside]
    split_ifs <;> simp only [St.markL, St.markR, St.markT, St.markB, mark_iff, Marks.clear, Bool.false_eq_true, or_false, false_iff] <;> omega
  · intro y x
    constructor
    · intro hv hf
      have : y = J.yc ∧ x = J.xc := by unfold Job.far far at hf; omega
      rw [this.1, this.2]; simp
    · intro h
      rw [if_neg]
      rintro ⟨rfl, rfl⟩
      exact h ⟨.centre, by simp [Job.far, far]⟩

theorem expand_ok {J : Job R} (hc : J.inside J.yc J.xc) : ∃ res e, expand J = some (res, e) ∧ Done J res e := by
  have hc' := hc
  obtain ⟨⟨h1, h2⟩, h3, h4⟩ := hc'
  refine rings_ok hc _ 1 _ _ _ (by omega) (first_ok hc) ?_ (by omega) (by omega)
  refine ⟨⟨?_, ?_, ?_, ?_⟩, ⟨?_, ?_, ?_, ?_⟩, ⟨?_, ?_, ?_, ?_⟩, ⟨?_, ?_, ?_, ?_⟩⟩ <;> simp only [] <;> omega

end Verif.Approx
