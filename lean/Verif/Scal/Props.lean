import Verif.Scal.Model
import Mathlib.Order.WithBot

/-!
# C176: comparing scalar parameters
-/

namespace Verif.Scal

variable {R : Type} [LinearOrder R]

/-- The place of a float that is a number on the extended line. -/
def place : Num R → Option (WithBot (WithTop R))
  | .nan => none
  | .ninf => some ⊥
  | .pinf => some ((⊤ : WithTop R) : WithBot (WithTop R))
  | .fin x => some (((x : R) : WithTop R) : WithBot (WithTop R))

theorem numEq_place (v w : Num R) (a b : WithBot (WithTop R)) (ha : place v = some a) (hb : place w = some b) : numEq v w = decide (a = b) := by
  cases v <;> cases w <;> simp only [place, Option.some.injEq, reduceCtorEq] at ha hb <;> subst ha <;> subst hb <;> simp [numEq]

theorem lt_place (v w : Num R) (a b : WithBot (WithTop R)) (ha : place v = some a) (hb : place w = some b) : v.lt w = decide (a < b) := by
  cases v <;> cases w <;> simp only [place, Option.some.injEq, reduceCtorEq] at ha hb <;> subst ha <;> subst hb <;> simp [Num.lt]
  exact WithBot.coe_lt_coe.mpr (WithTop.coe_lt_top _)

/-- **Numbers**: for two scalar parameters whose values are numbers or infinities, of whatever classes, the six operators are those of the extended line. -/
theorem C176_order (v w : Num R) (a b : WithBot (WithTop R)) (ha : place v = some a) (hb : place w = some b) (other : Obj R) (ho : other.val = some w) :
    eqWith v other = .ok (decide (a = b)) ∧ neWith v other = .ok (decide (a ≠ b)) ∧ ltWith v other = .ok (decide (a < b)) ∧
      leWith v other = .ok (decide (a ≤ b)) ∧ gtWith v other = .ok (decide (b < a)) ∧ geWith v other = .ok (decide (b ≤ a)) := by
  have h1 : eqWith v other = .ok (decide (a = b)) := by
    unfold eqWith
    rw [ho]
    exact congrArg _ (numEq_place v w a b ha hb)
  have h2 : ltWith v other = .ok (decide (a < b)) := by
    unfold ltWith
    rw [ho]
    exact congrArg _ (lt_place v w a b ha hb)
  have h3 : neWith v other = .ok (decide (a ≠ b)) := by
    unfold neWith
    rw [h1]
    simp [Except.map]
  refine ⟨h1, h3, h2, ?_, ?_, ?_⟩
  · unfold leWith
    rw [h2]
    by_cases h : a < b
    · simp [h, h.le]
    · simp only [h, decide_false]
      rw [h1]
      congr 1
      rw [decide_eq_decide]
      exact ⟨fun e => e.le, fun e => e.eq_of_not_lt h⟩
  · unfold gtWith
    rw [h2]
    by_cases h : a < b
    · simp [h, h.le]
    · simp only [h, decide_false]
      rw [h3]
      congr 1
      rw [decide_eq_decide]
      exact ⟨fun e => lt_of_le_of_ne (not_lt.mp h) (Ne.symm e), fun e => ne_of_gt e⟩
  · unfold geWith
    rw [h2]
    by_cases h : a < b
    · simp [Except.map, h]
    · simp [Except.map, h, not_lt.mp h]

/-- **NaN**: if one of the values is NaN, `==`, `<` and `<=` are False as for floats, but `>` and `>=` are True in both directions (for
classes that are the same or unrelated). -/
theorem C176_nan (v w : Num R) (h : v = .nan ∨ w = .nan) (other : Obj R) (ho : other.val = some w) :
    eqWith v other = .ok false ∧ ltWith v other = .ok false ∧ leWith v other = .ok false ∧ neWith v other = .ok true ∧ gtWith v other = .ok true ∧
      geWith v other = .ok true := by
  have h1 : eqWith v other = .ok false := by
    unfold eqWith
    rw [ho]
    rcases h with rfl | rfl
    · rfl
    · cases v <;> rfl
  have h2 : ltWith v other = .ok false := by
    unfold ltWith
    rw [ho]
    rcases h with rfl | rfl
    · rfl
    · cases v <;> rfl
  have h3 : neWith v other = .ok true := by
    unfold neWith
    rw [h1]
    rfl
  refine ⟨h1, h2, ?_, h3, ?_, ?_⟩
  · unfold leWith
    rw [h2]
    exact h1
  · unfold gtWith
    rw [h2]
    exact h3
  · unfold geWith
    rw [h2]
    rfl

/-- **Other objects**: every operator raises AttributeError against an object without `getValue` (None, a number, an array). -/
theorem C176_other (v : Num R) (other : Obj R) (ho : other.val = none) :
    eqWith v other = .error .attribute ∧ neWith v other = .error .attribute ∧ ltWith v other = .error .attribute ∧ leWith v other = .error .attribute ∧
      gtWith v other = .error .attribute ∧ geWith v other = .error .attribute := by
  have h1 : eqWith v other = .error .attribute := by
    unfold eqWith
    rw [ho]
  have h2 : ltWith v other = .error .attribute := by
    unfold ltWith
    rw [ho]
  refine ⟨h1, ?_, h2, ?_, ?_, ?_⟩
  · unfold neWith
    rw [h1]
    rfl
  · unfold leWith
    rw [h2]
  · unfold gtWith
    rw [h2]
  · unfold geWith
    rw [h2]
    rfl

/-- `x` has the value `v`, at `a` on the extended line. -/
def At (x : Obj R × Num R) (a : WithBot (WithTop R)) : Prop := x.1.val = some x.2 ∧ place x.2 = some a

theorem maxFrom_ok (l : List (Obj R × Num R)) : ∀ (best : Obj R × Num R) (a : WithBot (WithTop R)), At best a → (∀ x ∈ l, ∃ b, At x b) →
    ∃ m c, maxFrom best l = .ok m ∧ At m c ∧ m ∈ best :: l ∧ ∀ x ∈ best :: l, ∀ b, At x b → b ≤ c := by
  induction l with
  | nil =>
    intro best a ha _
    refine ⟨best, a, rfl, ha, by simp, fun x hx b hb => ?_⟩
    obtain rfl := List.mem_singleton.mp hx
    exact (Option.some.inj (hb.2.symm.trans ha.2)).le
  | cons x l ih =>
    intro best a ha hl
    obtain ⟨b, hb⟩ := hl x (by simp)
    have hg := (C176_order x.2 best.2 b a hb.2 ha.2 best.1 ha.1).2.2.2.2.1
    by_cases h : a < b
    · obtain ⟨m, c, h1, h2, h3, h4⟩ := ih x b hb (fun y hy => hl y (by simp [hy]))
      refine ⟨m, c, ?_, h2, List.mem_cons_of_mem _ h3, fun y hy d hd => ?_⟩
      · unfold maxFrom
        rw [hg]
        simp only [h, decide_true]
        exact h1
      · rcases List.mem_cons.mp hy with rfl | hy
        · obtain rfl := Option.some.inj (hd.2.symm.trans ha.2)
          exact h.le.trans (h4 x (by simp) b hb)
        · exact h4 y hy d hd
    · obtain ⟨m, c, h1, h2, h3, h4⟩ := ih best a ha (fun y hy => hl y (by simp [hy]))
      refine ⟨m, c, ?_, h2, ?_, fun y hy d hd => ?_⟩
      · unfold maxFrom
        rw [hg]
        simp only [h, decide_false]
        exact h1
      · rcases List.mem_cons.mp h3 with rfl | h3
        · simp
        · simp [h3]
      · rcases List.mem_cons.mp hy with rfl | hy
        · exact h4 y (by simp) d hd
        · rcases List.mem_cons.mp hy with rfl | hy
          · obtain rfl := Option.some.inj (hd.2.symm.trans hb.2)
            exact (not_lt.mp h).trans (h4 best (by simp) a ha)
          · exact h4 y (by simp [hy]) d hd

theorem minFrom_ok (l : List (Obj R × Num R)) : ∀ (best : Obj R × Num R) (a : WithBot (WithTop R)), At best a → (∀ x ∈ l, ∃ b, At x b) →
    ∃ m c, minFrom best l = .ok m ∧ At m c ∧ m ∈ best :: l ∧ ∀ x ∈ best :: l, ∀ b, At x b → c ≤ b := by
  induction l with
  | nil =>
    intro best a ha _
    refine ⟨best, a, rfl, ha, by simp, fun x hx b hb => ?_⟩
    obtain rfl := List.mem_singleton.mp hx
    exact (Option.some.inj (hb.2.symm.trans ha.2)).ge
  | cons x l ih =>
    intro best a ha hl
    obtain ⟨b, hb⟩ := hl x (by simp)
    have hg := (C176_order x.2 best.2 b a hb.2 ha.2 best.1 ha.1).2.2.1
    by_cases h : b < a
    · obtain ⟨m, c, h1, h2, h3, h4⟩ := ih x b hb (fun y hy => hl y (by simp [hy]))
      refine ⟨m, c, ?_, h2, List.mem_cons_of_mem _ h3, fun y hy d hd => ?_⟩
      · unfold minFrom
        rw [hg]
        simp only [h, decide_true]
        exact h1
      · rcases List.mem_cons.mp hy with rfl | hy
        · obtain rfl := Option.some.inj (hd.2.symm.trans ha.2)
          exact (h4 x (by simp) b hb).trans h.le
        · exact h4 y hy d hd
    · obtain ⟨m, c, h1, h2, h3, h4⟩ := ih best a ha (fun y hy => hl y (by simp [hy]))
      refine ⟨m, c, ?_, h2, ?_, fun y hy d hd => ?_⟩
      · unfold minFrom
        rw [hg]
        simp only [h, decide_false]
        exact h1
      · rcases List.mem_cons.mp h3 with rfl | h3
        · simp
        · simp [h3]
      · rcases List.mem_cons.mp hy with rfl | hy
        · exact h4 y (by simp) d hd
        · rcases List.mem_cons.mp hy with rfl | hy
          · obtain rfl := Option.some.inj (hd.2.symm.trans hb.2)
            exact (h4 best (by simp) a ha).trans (not_lt.mp h)
          · exact h4 y (by simp [hy]) d hd

/-- **`max` and `min`** of scalar parameters without NaN are parameters of the list with the largest and the smallest value.  Missing: lists with NaN, for which
C176_max_false shows that `max` is not the largest number. -/
theorem C176_extremes_partial (x : Obj R × Num R) (l : List (Obj R × Num R)) (h : ∀ y ∈ x :: l, ∃ b, At y b) :
    (∃ m c, maxFrom x l = .ok m ∧ At m c ∧ m ∈ x :: l ∧ ∀ y ∈ x :: l, ∀ b, At y b → b ≤ c) ∧
      ∃ m c, minFrom x l = .ok m ∧ At m c ∧ m ∈ x :: l ∧ ∀ y ∈ x :: l, ∀ b, At y b → c ≤ b := by
  obtain ⟨a, ha⟩ := h x (by simp)
  exact ⟨maxFrom_ok l x a ha (fun y hy => h y (by simp [hy])), minFrom_ok l x a ha (fun y hy => h y (by simp [hy]))⟩

/-- **A NaN makes `max` forget all before it**: it is the largest of what comes after the last NaN, even if larger values stand before. -/
theorem C176_max_false (x n y : Obj R × Num R) (hn : n.1.val = some .nan ∧ n.2 = .nan) (hx : x.1.val = some x.2) :
    maxFrom x [n] = .ok n ∧ maxFrom x [n, y] = .ok y := by
  have h1 : gtWith n.2 x.1 = .ok true := (C176_nan n.2 x.2 (.inl hn.2) x.1 hx).2.2.2.2.1
  have h2 : gtWith y.2 n.1 = .ok true := (C176_nan y.2 .nan (.inr rfl) n.1 hn.1).2.2.2.2.1
  constructor
  · unfold maxFrom
    rw [h1]
    rfl
  · unfold maxFrom
    rw [h1]
    dsimp only
    unfold maxFrom
    rw [h2]
    rfl

/-- The entry of a list is the parameter itself, or one with the same value, not NaN. -/
def Matches (x : Obj R) (v : Num R) (item : Obj R) : Prop :=
  item.id = x.id ∨ ∃ w a, item.val = some w ∧ place w = some a ∧ place v = some a

/-- **`in` and `index`**: the place of the first entry that is the parameter or has the same value (whatever its class), if all entries before it (all entries, if there is
no such entry) are scalar parameters; AttributeError if some entry before it is another object, for example None. -/
theorem C176_index (x : Obj R) (v : Num R) (hx : x.val = some v) (l : List (Obj R)) :
    (∀ pre m post, l = pre ++ m :: post → (∀ z ∈ pre, ¬ Matches x v z ∧ z.val ≠ none) → Matches x v m → indexOf x v l = .ok (some pre.length)) ∧
    ((∀ z ∈ l, ¬ Matches x v z ∧ z.val ≠ none) → indexOf x v l = .ok none) ∧
    (∀ pre m post, l = pre ++ m :: post → (∀ z ∈ pre, ¬ Matches x v z ∧ z.val ≠ none) → m.val = none → m.id ≠ x.id → indexOf x v l = .error .attribute) := by
  have hne : ∀ z : Obj R, ¬ Matches x v z → z.val ≠ none → z.id ≠ x.id ∧ eqItem z x v = .ok false := by
    intro z hz hv
    refine ⟨fun h => hz (.inl h), ?_⟩
    obtain ⟨w, hw⟩ := Option.ne_none_iff_exists'.mp hv
    unfold eqItem
    rw [hw]
    dsimp only
    rcases hpw : place w with _ | a
    · have : w = .nan := by cases w <;> simp [place] at hpw ⊢
      exact (C176_nan w v (.inl this) x hx).1
    · rcases hpv : place v with _ | b
      · have : v = .nan := by cases v <;> simp [place] at hpv ⊢
        exact (C176_nan w v (.inr this) x hx).1
      · rw [(C176_order w v a b hpw hpv x hx).1]
        have : a ≠ b := fun h => hz (.inr ⟨w, a, hw, hpw, by rw [hpv, h]⟩)
        simp [this]
  have step : ∀ z l', ¬ Matches x v z → z.val ≠ none → indexOf x v (z :: l') = (indexOf x v l').map (·.map (· + 1)) := by
    intro z l' hz hv
    obtain ⟨h1, h2⟩ := hne z hz hv
    rw [indexOf, if_neg h1, h2]
  induction l with
  | nil =>
    refine ⟨fun pre m post h => ?_, fun _ => rfl, fun pre m post h => ?_⟩
    · simp at h
    · simp at h
  | cons z l ih =>
    obtain ⟨i1, i2, i3⟩ := ih
    refine ⟨fun pre m post h hp hm => ?_, fun h => ?_, fun pre m post h hp hm hid => ?_⟩
    · rcases pre with _ | ⟨q, pre⟩
      · obtain ⟨rfl, rfl⟩ := List.cons.inj h
        rw [indexOf]
        by_cases hid : z.id = x.id
        · rw [if_pos hid]
          rfl
        · rw [if_neg hid]
          rcases hm with hm | ⟨w, a, hw, hpw, hpv⟩
          · exact absurd hm hid
          · have : eqItem z x v = .ok true := by
              unfold eqItem
              rw [hw]
              dsimp only
              rw [(C176_order w v a a hpw hpv x hx).1]
              simp
            rw [this]
            rfl
      · obtain ⟨rfl, rfl⟩ := List.cons.inj h
        rw [step z _ (hp z (by simp)).1 (hp z (by simp)).2, i1 pre m post rfl (fun y hy => hp y (by simp [hy])) hm]
        rfl
    · rw [step z _ (h z (by simp)).1 (h z (by simp)).2, i2 (fun y hy => h y (by simp [hy]))]
      rfl
    · rcases pre with _ | ⟨q, pre⟩
      · obtain ⟨rfl, rfl⟩ := List.cons.inj h
        rw [indexOf, if_neg hid]
        unfold eqItem
        rw [hm]
        dsimp only
        rw [(C176_other v z hm).1]
      · obtain ⟨rfl, rfl⟩ := List.cons.inj h
        rw [step z _ (hp z (by simp)).1 (hp z (by simp)).2, i3 pre m post rfl (fun y hy => hp y (by simp [hy])) hm hid]
        rfl

/-! A flux of 5, one of 1, one that is NaN, a magnitude of 5 and None. -/

def exF5 : Obj Int := ⟨0, "Flux", some (.fin 5)⟩
def exF1 : Obj Int := ⟨1, "Flux", some (.fin 1)⟩
def exNan : Obj Int := ⟨2, "Flux", some .nan⟩
def exM5 : Obj Int := ⟨3, "Mag", some (.fin 5)⟩
def exNone : Obj Int := ⟨4, "NoneType", none⟩

-- the smaller value is `<`, and `5 >= inf` is False
example : ltWith (.fin 1) exF5 = .ok true ∧ geWith (.fin 5) ⟨9, "Flux", some .pinf⟩ = .ok false := by
  refine ⟨(C176_order (.fin 1) (.fin 5) _ _ rfl rfl exF5 rfl).2.2.1.trans ?_, (C176_order (.fin 5) .pinf _ _ rfl rfl ⟨9, "Flux", some .pinf⟩ rfl).2.2.2.2.2.trans ?_⟩
  · decide
  · decide

example : gtWith (.fin 5) exNan = .ok true ∧ gtWith .nan exF5 = .ok true :=
  ⟨(C176_nan (.fin 5) .nan (.inr rfl) exNan rfl).2.2.2.2.1, (C176_nan .nan (.fin 5) (.inl rfl) exF5 rfl).2.2.2.2.1⟩

example : eqWith (.fin 5) exNone = .error .attribute := (C176_other (.fin 5) exNone rfl).1

example : maxFrom (exF1, .fin 1) [(exF5, .fin 5)] = .ok (exF5, .fin 5) := rfl

example : ∀ y ∈ [(exF1, Num.fin 1), (exF5, .fin 5)], ∃ b, At y b := by
  intro y hy
  simp only [List.mem_cons, List.not_mem_nil, or_false] at hy
  rcases hy with rfl | rfl <;> exact ⟨_, rfl, rfl⟩

-- the largest of 5, NaN, 1 is 1
example : maxFrom (exF5, .fin 5) [(exNan, .nan), (exF1, .fin 1)] = .ok (exF1, .fin 1) :=
  (C176_max_false (exF5, .fin 5) (exNan, .nan) (exF1, .fin 1) ⟨rfl, rfl⟩ rfl).2

-- a magnitude of 5 is found in the place of the flux of 5; with None before it, AttributeError
example : indexOf exM5 (.fin 5) [exF1, exF5] = .ok (some 1) :=
  (C176_index exM5 (.fin 5) rfl [exF1, exF5]).1 [exF1] exF5 [] rfl (by
    intro z hz
    obtain rfl := List.mem_singleton.mp hz
    refine ⟨?_, by simp [exF1]⟩
    rintro (h | ⟨w, a, h1, h2, h3⟩)
    · simp [exF1, exM5] at h
    · cases h1
      have := h2.trans h3.symm
      revert this
      decide) (.inr ⟨.fin 5, _, rfl, rfl, rfl⟩)

example : indexOf exM5 (.fin 5) [exNone, exF5] = .error .attribute :=
  (C176_index exM5 (.fin 5) rfl [exNone, exF5]).2.2 [] exNone [exF5] rfl (by simp) rfl (by simp [exNone, exM5])

end Verif.Scal
