import Verif.Approx.Lemmas

/-!
# Lemmas: one ring
-/

namespace Verif.Approx

variable {R : Type} [Zero R] [LinearOrder R]

omit [Zero R] [LinearOrder R] in
theorem mem_span (lo hi i : Int) : i ∈ span lo hi ↔ lo ≤ i ∧ i < hi := by
  unfold span
  rw [List.mem_map]
  constructor
  · rintro ⟨k, hk, rfl⟩
    rw [List.mem_range] at hk
    omega
  · intro h
    exact ⟨(i - lo).toNat, by rw [List.mem_range]; omega, by omega⟩

omit [Zero R] in
theorem Did.reset {J : Job R} {rad : Int} {s s' : St R} {P : Int → Int → Prop}
    (h : Did J rad { s with row := false } s' P) : Did J rad s s' P :=
  ⟨h.res, h.any, h.t, h.b, h.l, h.r⟩

omit [Zero R] in
theorem fold_did {J : Job R} {rad : Int} (f : St R → Int → St R) (Q : Int → Int → Int → Prop) :
    ∀ (l : List Int) (s : St R), (∀ i ∈ l, ∀ s, Did J rad s (f s i) (Q i)) →
      Did J rad s (l.foldl f s) (fun y x => ∃ i ∈ l, Q i y x)
  | [], s, _ => (Did.refl J rad s).congr (by simp)
  | i :: l, s, h => by
    have h1 := h i (by simp) s
    have h2 := fold_did f Q l (f s i) (fun j hj s => h j (by simp [hj]) s)
    exact (h1.trans h2).congr (by simp)

omit [Zero R] [LinearOrder R] in
theorem fold_row (f : St R → Int → St R) (c : Int → Bool) (hf : ∀ s i, (f s i).row = (s.row || c i)) :
    ∀ (l : List Int) (s : St R), (l.foldl f s).row = true ↔ s.row = true ∨ ∃ i ∈ l, c i = true
  | [], s => by simp
  | i :: l, s => by
    rw [List.foldl_cons, fold_row f c hf l, hf]
    simp [or_assoc]

omit [Zero R] in
theorem top_row (J : Job R) (rad yy : Int) (d : Int → Bool) (s : St R) (i : Int) :
    (topPixel J rad yy d s i).row = (s.row || d i) := by
  unfold topPixel
  by_cases hd : d i = true
  · simp only [hd, Bool.not_true, Bool.false_eq_true, if_false, Bool.or_true]
    split_ifs <;> simp [St.visit, St.markL, St.markR, St.markT]
  · simp [hd]

omit [Zero R] in
theorem bottom_row (J : Job R) (rad yy : Int) (d : Int → Bool) (s : St R) (i : Int) :
    (bottomPixel J rad yy d s i).row = (s.row || d i) := by
  unfold bottomPixel
  by_cases hd : d i = true
  · simp only [hd, Bool.not_true, Bool.false_eq_true, if_false, Bool.or_true]
    split_ifs <;> simp [St.visit, St.markL, St.markR, St.markB]
  · simp [hd]

omit [Zero R] in
theorem left_row (J : Job R) (rad xx : Int) (d : Int → Bool) (s : St R) (i : Int) :
    (leftPixel J rad xx d s i).row = (s.row || d i) := by
  unfold leftPixel
  by_cases hd : d i = true
  · simp only [hd, Bool.not_true, Bool.false_eq_true, if_false, Bool.or_true]
    split_ifs <;> simp [St.visit, St.markL]
  · simp [hd]

omit [Zero R] in
theorem right_row (J : Job R) (rad xx : Int) (d : Int → Bool) (s : St R) (i : Int) :
    (rightPixel J rad xx d s i).row = (s.row || d i) := by
  unfold rightPixel
  by_cases hd : d i = true
  · simp only [hd, Bool.not_true, Bool.false_eq_true, if_false, Bool.or_true]
    split_ifs <;> simp [St.visit, St.markR]
  · simp [hd]

/-- Marks lie in the ring and in the box. -/
structure Good (J : Job R) (rad : Int) (d : Marks) : Prop where
  t : ∀ x, d.t x = true → J.inside (J.yc + rad) x ∧ ((x - J.xc).natAbs : Int) ≤ rad
  b : ∀ x, d.b x = true → J.inside (J.yc - rad) x ∧ ((x - J.xc).natAbs : Int) ≤ rad
  l : ∀ y, d.l y = true → J.inside y (J.xc - rad) ∧ ((y - J.yc).natAbs : Int) < rad
  r : ∀ y, d.r y = true → J.inside y (J.xc + rad) ∧ ((y - J.yc).natAbs : Int) < rad

/-- The marked pixels. -/
def Active (J : Job R) (rad : Int) (d : Marks) (y x : Int) : Prop :=
  (((d.t x = true ∧ y = J.yc + rad) ∨ (d.b x = true ∧ y = J.yc - rad)) ∨ (d.l y = true ∧ x = J.xc - rad)) ∨
    (d.r y = true ∧ x = J.xc + rad)

omit [Zero R] in
/-- One side: a fold over a span that covers the marks, or nothing when there are none. -/
theorem side_ok {J : Job R} {rad : Int} (f : St R → Int → St R) (c : Int → Bool) (lo hi : Int) (g : Prop) [Decidable g]
    (Q : Int → Int → Int → Prop) (s : St R) (e : Ext) (upd : Ext → Ext)
    (hdid : ∀ i s, Did J rad s (f s i) (fun y x => c i = true ∧ Q i y x))
    (hrow : ∀ s i, (f s i).row = (s.row || c i)) (hin : ∀ i, c i = true → g ∧ lo ≤ i ∧ i < hi)
    (p : St R × Ext)
    (hp : p = if g then
        (((span lo hi).foldl f { s with row := false }),
          if ((span lo hi).foldl f { s with row := false }).row then upd e else e)
      else (s, e)) :
    Did J rad s p.1 (fun y x => ∃ i, c i = true ∧ Q i y x) ∧ ((∃ i, c i = true) → p.2 = upd e) ∧
      ((¬ ∃ i, c i = true) → p.2 = e) := by
  subst hp
  by_cases hg : g
  · simp only [if_pos hg]
    have hr := fold_row f c hrow (span lo hi) { s with row := false }
    have hd := fold_did f (fun i y x => c i = true ∧ Q i y x) (span lo hi) { s with row := false }
      (fun i _ s => hdid i s)
    refine ⟨hd.reset.congr (fun y x => ?_), ?_, ?_⟩
    · constructor
      · rintro ⟨i, -, h⟩; exact ⟨i, h⟩
      · rintro ⟨i, h⟩; exact ⟨i, (mem_span _ _ _).mpr (hin i h.1).2, h⟩
    · rintro ⟨i, h⟩
      rw [if_pos (hr.mpr (.inr ⟨i, (mem_span _ _ _).mpr (hin i h).2, h⟩))]
    · intro h
      rw [if_neg]
      intro h'
      rcases hr.mp h' with h' | ⟨i, -, hi⟩
      · simp at h'
      · exact h ⟨i, hi⟩
  · simp only [if_neg hg]
    refine ⟨(Did.refl J rad s).congr (fun y x => ?_), ?_, by simp⟩
    · constructor
      · exact False.elim
      · rintro ⟨i, h⟩; exact hg (hin i h.1).1
    · rintro ⟨i, h⟩; exact absurd (hin i h).1 hg

omit [Zero R] in
theorem ring_ok (J : Job R) (rad : Int) (d : Marks) (res : Int → Int → R) (e : Ext) (h1 : 1 ≤ rad) (hd : Good J rad d) :
    Did J rad ⟨res, Marks.clear, false, false⟩ (ring J rad d res e).1 (Active J rad d) ∧
    ((∃ x, d.t x = true) → (ring J rad d res e).2.y1 = J.yc + rad - J.bx.y0) ∧
    ((¬ ∃ x, d.t x = true) → (ring J rad d res e).2.y1 = e.y1) ∧
    ((∃ x, d.b x = true) → (ring J rad d res e).2.y0 = J.yc - rad - J.bx.y0) ∧
    ((¬ ∃ x, d.b x = true) → (ring J rad d res e).2.y0 = e.y0) ∧
    ((∃ y, d.l y = true) → (ring J rad d res e).2.x0 = J.xc - rad - J.bx.x0) ∧
    ((¬ ∃ y, d.l y = true) → (ring J rad d res e).2.x0 = e.x0) ∧
    ((∃ y, d.r y = true) → (ring J rad d res e).2.x1 = J.xc + rad - J.bx.x0) ∧
    ((¬ ∃ y, d.r y = true) → (ring J rad d res e).2.x1 = e.x1) := by
  obtain ⟨pt, hpt⟩ : ∃ p, p = if J.yc + rad < J.bx.y1 then
      (((span J.bx.x0 J.bx.x1).foldl (topPixel J rad (J.yc + rad) d.t) { (⟨res, Marks.clear, false, false⟩ : St R) with row := false }),
        if ((span J.bx.x0 J.bx.x1).foldl (topPixel J rad (J.yc + rad) d.t) { (⟨res, Marks.clear, false, false⟩ : St R) with row := false }).row
        then { e with y1 := J.yc + rad - J.bx.y0 } else e)
      else (⟨res, Marks.clear, false, false⟩, e) := ⟨_, rfl⟩
  obtain ⟨pb, hpb⟩ : ∃ p, p = if J.yc - rad ≥ J.bx.y0 then
      (((span J.bx.x0 J.bx.x1).foldl (bottomPixel J rad (J.yc - rad) d.b) { pt.1 with row := false }),
        if ((span J.bx.x0 J.bx.x1).foldl (bottomPixel J rad (J.yc - rad) d.b) { pt.1 with row := false }).row
        then { pt.2 with y0 := J.yc - rad - J.bx.y0 } else pt.2)
      else (pt.1, pt.2) := ⟨_, rfl⟩
  obtain ⟨pl, hpl⟩ : ∃ p, p = if J.xc - rad ≥ J.bx.x0 then
      (((span J.bx.y0 J.bx.y1).foldl (leftPixel J rad (J.xc - rad) d.l) { pb.1 with row := false }),
        if ((span J.bx.y0 J.bx.y1).foldl (leftPixel J rad (J.xc - rad) d.l) { pb.1 with row := false }).row
        then { pb.2 with x0 := J.xc - rad - J.bx.x0 } else pb.2)
      else (pb.1, pb.2) := ⟨_, rfl⟩
  obtain ⟨pr, hpr⟩ : ∃ p, p = if J.xc + rad < J.bx.x1 then
      (((span J.bx.y0 J.bx.y1).foldl (rightPixel J rad (J.xc + rad) d.r) { pl.1 with row := false }),
        if ((span J.bx.y0 J.bx.y1).foldl (rightPixel J rad (J.xc + rad) d.r) { pl.1 with row := false }).row
        then { pl.2 with x1 := J.xc + rad - J.bx.x0 } else pl.2)
      else (pl.1, pl.2) := ⟨_, rfl⟩
  have hrun : ring J rad d res e = pr := by
    subst hpr hpl hpb hpt; rfl
  obtain ⟨dt, t1, t2⟩ := side_ok (J := J) (rad := rad) (topPixel J rad (J.yc + rad) d.t) d.t J.bx.x0 J.bx.x1
    (J.yc + rad < J.bx.y1) (fun i y x => y = J.yc + rad ∧ x = i) _ e (fun e => { e with y1 := J.yc + rad - J.bx.y0 })
    (fun i s => top_did J rad i d.t s h1 (hd.t i)) (top_row J rad _ d.t)
    (fun i hi => ⟨(hd.t i hi).1.2.2, (hd.t i hi).1.1⟩) pt hpt
  obtain ⟨db, b1, b2⟩ := side_ok (J := J) (rad := rad) (bottomPixel J rad (J.yc - rad) d.b) d.b J.bx.x0 J.bx.x1
    (J.yc - rad ≥ J.bx.y0) (fun i y x => y = J.yc - rad ∧ x = i) pt.1 pt.2 (fun e => { e with y0 := J.yc - rad - J.bx.y0 })
    (fun i s => bottom_did J rad i d.b s h1 (hd.b i)) (bottom_row J rad _ d.b)
    (fun i hi => ⟨(hd.b i hi).1.2.1, (hd.b i hi).1.1⟩) pb hpb
  obtain ⟨dl, l1, l2⟩ := side_ok (J := J) (rad := rad) (leftPixel J rad (J.xc - rad) d.l) d.l J.bx.y0 J.bx.y1
    (J.xc - rad ≥ J.bx.x0) (fun i y x => y = i ∧ x = J.xc - rad) pb.1 pb.2 (fun e => { e with x0 := J.xc - rad - J.bx.x0 })
    (fun i s => left_did J rad i d.l s h1 (hd.l i)) (left_row J rad _ d.l)
    (fun i hi => ⟨(hd.l i hi).1.1.1, (hd.l i hi).1.2⟩) pl hpl
  obtain ⟨dr, r1, r2⟩ := side_ok (J := J) (rad := rad) (rightPixel J rad (J.xc + rad) d.r) d.r J.bx.y0 J.bx.y1
    (J.xc + rad < J.bx.x1) (fun i y x => y = i ∧ x = J.xc + rad) pl.1 pl.2 (fun e => { e with x1 := J.xc + rad - J.bx.x0 })
    (fun i s => right_did J rad i d.r s h1 (hd.r i)) (right_row J rad _ d.r)
    (fun i hi => ⟨(hd.r i hi).1.1.2, (hd.r i hi).1.2⟩) pr hpr
  rw [hrun]
  clear hrun hpr hpl hpb hpt
  refine ⟨(((dt.trans db).trans dl).trans dr).congr (fun y x => ?_), ?_⟩
  · unfold Active
    refine or_congr (or_congr (or_congr ?_ ?_) ?_) ?_ <;> constructor
    · rintro ⟨i, h, rfl, rfl⟩; exact ⟨h, rfl⟩
    · rintro ⟨h, rfl⟩; exact ⟨x, h, rfl, rfl⟩
    · rintro ⟨i, h, rfl, rfl⟩; exact ⟨h, rfl⟩
    · rintro ⟨h, rfl⟩; exact ⟨x, h, rfl, rfl⟩
    · rintro ⟨i, h, rfl, rfl⟩; exact ⟨h, rfl⟩
    · rintro ⟨h, rfl⟩; exact ⟨y, h, rfl, rfl⟩
    · rintro ⟨i, h, rfl, rfl⟩; exact ⟨h, rfl⟩
    · rintro ⟨h, rfl⟩; exact ⟨y, h, rfl, rfl⟩
  · by_cases ht : ∃ x, d.t x = true <;> by_cases hb : ∃ x, d.b x = true <;> by_cases hl : ∃ x, d.l x = true <;>
      by_cases hr : ∃ x, d.r x = true <;> simp [ht, hb, hl, hr, t1, t2, b1, b2, l1, l2, r1, r2]

end Verif.Approx
