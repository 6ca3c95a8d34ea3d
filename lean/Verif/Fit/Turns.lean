import Verif.Fit.Order
import Verif.Fit.Pool

/-!
# Fitting groups of objects in turns (C161): model and lemmas

Some objects are frozen (`catalog.freezeAllBut(i)`), the others optimized, then the flags are set back.
-/

namespace Verif.Fit

open Verif Params Patches Engine Finset

variable {R M : Type}

/-- Images and sources, by number. -/
structure Group where
  images : Nat → Bool
  sources : Nat → Bool

/-- The objects that are not chosen are frozen, `freezeParam`, utils.py 560-566; what is frozen stays so.  `freezeAllBut`, 568-570, does the same if the
chosen ones are thawed before. -/
def narrow {α : Type} (s : Nat → Bool) : List (Bool × α) → List (Bool × α)
  | [] => []
  | (b, x) :: l => (b && s 0, x) :: narrow (fun i => s (i + 1)) l

/-- The objects of the second list with the flags of the first, `thawParam` for those that were thawed, utils.py 585-595. -/
def reflag {α : Type} : List (Bool × α) → List (Bool × α) → List (Bool × α)
  | (b, _) :: l, (_, x) :: l' => (b, x) :: reflag l l'
  | _, _ => []

/-- The tractor with all but a group frozen. -/
def focus (g : Group) (T : Tractor R M) : Tractor R M :=
  { T with images := narrow g.images T.images, catalog := narrow g.sources T.catalog }

/-- The flags of `T` set back. -/
def restore (T T' : Tractor R M) : Tractor R M :=
  { T' with images := reflag T.images T'.images, catalog := reflag T.catalog T'.catalog }

section
variable [Field R] [LinearOrder R]

/-- One turn: all but a group frozen, `optimize`, flags set back. -/
def turn (S : Solver R) (W : World R M) (hooks : Tractor R M → Nat → Nat → Option (List (Deriv R))) (o : Opts) (alphas : List R) (g : Group)
    (T : Tractor R M) : Tractor R M × Except PyErr (Num R × R) :=
  let r := optimize S W hooks o alphas (focus g T)
  (restore T r.1, r.2)

/-- Several turns, one after the other. -/
def turns (S : Solver R) (W : World R M) (hooks : Tractor R M → Nat → Nat → Option (List (Deriv R))) (o : Opts) (alphas : List R) :
    List Group → Tractor R M → Tractor R M × Except PyErr Unit
  | [], T => (T, .ok ())
  | g :: gs, T =>
    match turn S W hooks o alphas g T with
    | (T', .error e) => (T', .error e)
    | (T', .ok _) => turns S W hooks o alphas gs T'

end

/-! ### Lists -/

/-- The thawed parameters of a list of objects: is the object chosen? -/
def picks {α : Type} (n : α → Nat) (s : Nat → Bool) : List (Bool × α) → List Bool
  | [] => []
  | (b, x) :: l => (if b then List.replicate (n x) (s 0) else []) ++ picks n (fun i => s (i + 1)) l

/-- The values `old` with those chosen replaced by `q`, in order. -/
def mix : List Bool → List R → List R → List R
  | true :: m, _ :: old, x :: q => x :: mix m old q
  | false :: m, x :: old, q => x :: mix m old q
  | _, _, _ => []

section generic

variable {α : Type} (n : α → Nat) (set : α → List R → α) (get : α → List R)

/-- The parameters of thawed objects set, one after the other. -/
def setL : List (Bool × α) → List R → List (Bool × α)
  | [], _ => []
  | (true, x) :: l, p => (true, set x (p.take (n x))) :: setL l (p.drop (n x))
  | (false, x) :: l, p => (false, x) :: setL l p

def getL : List (Bool × α) → List R
  | [] => []
  | (b, x) :: l => (if b then get x else []) ++ getL l

def sizeL : List (Bool × α) → Nat
  | [] => 0
  | (b, x) :: l => (if b then n x else 0) + sizeL l

theorem mix_true (k : Nat) (m : List Bool) (old q : List R) (h1 : k ≤ old.length) (h2 : k ≤ q.length) :
    mix (List.replicate k true ++ m) old q = q.take k ++ mix m (old.drop k) (q.drop k) := by
  induction k generalizing old q with
  | zero => rfl
  | succ k ih =>
    cases old with
    | nil => simp at h1
    | cons a old =>
      cases q with
      | nil => simp at h2
      | cons x q =>
        simp only [List.length_cons] at h1 h2
        simp only [List.replicate_succ, List.cons_append, mix, List.take_succ_cons, List.drop_succ_cons]
        rw [ih old q (by omega) (by omega)]

theorem mix_false (k : Nat) (m : List Bool) (old q : List R) (h1 : k ≤ old.length) :
    mix (List.replicate k false ++ m) old q = old.take k ++ mix m (old.drop k) q := by
  induction k generalizing old with
  | zero => rfl
  | succ k ih =>
    cases old with
    | nil => simp at h1
    | cons a old =>
      simp only [List.length_cons] at h1
      simp only [List.replicate_succ, List.cons_append, mix, List.take_succ_cons, List.drop_succ_cons]
      rw [ih old (by omega)]

theorem mix_append (m m' : List Bool) (old old' q q' : List R) (h1 : old.length = m.length) (h2 : q.length = m.count true) :
    mix (m ++ m') (old ++ old') (q ++ q') = mix m old q ++ mix m' old' q' := by
  induction m generalizing old q with
  | nil =>
    have : old = [] := List.length_eq_zero_iff.1 h1
    subst this
    have : q = [] := List.length_eq_zero_iff.1 (by simpa using h2)
    subst this
    rfl
  | cons b m ih =>
    cases old with
    | nil => simp at h1
    | cons a old =>
      simp only [List.length_cons] at h1
      cases b with
      | false =>
        simp only [List.cons_append, mix]
        rw [ih old q (by omega) (by simpa using h2)]
      | true =>
        cases q with
        | nil => simp at h2
        | cons x q =>
          simp only [List.cons_append, mix]
          rw [ih old q (by omega) (by simpa using h2)]

theorem mix_length (m : List Bool) (old q : List R) (h1 : old.length = m.length) (h2 : q.length = m.count true) : (mix m old q).length = m.length := by
  induction m generalizing old q with
  | nil => rfl
  | cons b m ih =>
    cases old with
    | nil => simp at h1
    | cons a old =>
      simp only [List.length_cons] at h1
      cases b with
      | false =>
        simp only [mix, List.length_cons]
        rw [ih old q (by omega) (by simpa using h2)]
      | true =>
        cases q with
        | nil => simp at h2
        | cons x q =>
          simp only [mix, List.length_cons]
          rw [ih old q (by omega) (by simpa using h2)]

/-- Those not chosen keep their values. -/
theorem mix_other (m : List Bool) (old q : List R) (h1 : old.length = m.length) (h2 : q.length = m.count true) (k : Nat) (hk : m[k]? = some false) :
    (mix m old q)[k]? = old[k]? := by
  induction m generalizing old q k with
  | nil => simp at hk
  | cons b m ih =>
    cases old with
    | nil => simp at h1
    | cons a old =>
      simp only [List.length_cons] at h1
      cases b with
      | false =>
        cases k with
        | zero => rfl
        | succ k =>
          simp only [mix, List.getElem?_cons_succ] at hk ⊢
          exact ih old q (by omega) (by simpa using h2) k hk
      | true =>
        cases q with
        | nil => simp at h2
        | cons x q =>
          cases k with
          | zero => simp at hk
          | succ k =>
            simp only [mix, List.getElem?_cons_succ] at hk ⊢
            exact ih old q (by omega) (by simpa using h2) k hk

/-- Every list that agrees where nothing is chosen is such a mixture. -/
theorem mix_exists (m : List Bool) (old p : List R) (h1 : old.length = m.length) (h2 : p.length = m.length)
    (h : ∀ k : Nat, m[k]? = some false → p[k]? = old[k]?) : ∃ q : List R, q.length = m.count true ∧ mix m old q = p := by
  induction m generalizing old p with
  | nil => exact ⟨[], rfl, (List.length_eq_zero_iff.1 h2).symm⟩
  | cons b m ih =>
    cases old with
    | nil => simp at h1
    | cons a old =>
      cases p with
      | nil => simp at h2
      | cons c p =>
        simp only [List.length_cons] at h1 h2
        obtain ⟨q, q1, q2⟩ := ih old p (by omega) (by omega) (fun k hk => by
          have := h (k + 1) (by simpa using hk)
          simpa using this)
        cases b with
        | false =>
          have := h 0 (by simp)
          simp only [List.getElem?_cons_zero, Option.some.injEq] at this
          exact ⟨q, by simpa using q1, by simp only [mix]; rw [q2, this]⟩
        | true => exact ⟨c :: q, by simpa using q1, by simp only [mix]; rw [q2]⟩

theorem picks_length (s : Nat → Bool) (l : List (Bool × α)) : (picks n s l).length = sizeL n l := by
  induction l generalizing s with
  | nil => rfl
  | cons x l ih =>
    obtain ⟨b, x⟩ := x
    cases b <;> simp [picks, sizeL, ih]

theorem picks_count (s : Nat → Bool) (l : List (Bool × α)) : (picks n s l).count true = sizeL n (narrow s l) := by
  induction l generalizing s with
  | nil => rfl
  | cons x l ih =>
    obtain ⟨b, x⟩ := x
    cases b with
    | false => simp [picks, sizeL, narrow, ih]
    | true =>
      cases h : s 0 <;> simp [picks, sizeL, narrow, ih, h, List.count_replicate]

theorem getL_length (hg : ∀ x, (get x).length = n x) (l : List (Bool × α)) : (getL get l).length = sizeL n l := by
  induction l with
  | nil => rfl
  | cons x l ih =>
    obtain ⟨b, x⟩ := x
    cases b <;> simp [getL, sizeL, ih, hg]

/-- Setting the chosen ones, and setting the flags back, is setting all, the others to what they were. -/
theorem setL_mix (hg : ∀ x, (get x).length = n x) (hs : ∀ x, set x (get x) = x) (s : Nat → Bool) (l : List (Bool × α)) (q : List R)
    (hq : q.length = sizeL n (narrow s l)) :
    reflag l (setL n set (narrow s l) q) = setL n set l (mix (picks n s l) (getL get l) q) := by
  induction l generalizing s q with
  | nil => rfl
  | cons x l ih =>
    obtain ⟨b, x⟩ := x
    cases b with
    | false =>
      simp only [narrow, Bool.false_and, sizeL, Bool.false_eq_true, if_false, Nat.zero_add] at hq
      simp only [narrow, Bool.false_and, setL, reflag, picks, getL, Bool.false_eq_true, if_false, List.nil_append, ih _ q hq]
    | true =>
      cases h : s 0 with
      | false =>
        simp only [narrow, h, Bool.and_false, sizeL, Bool.false_eq_true, if_false, Nat.zero_add] at hq
        simp only [narrow, h, Bool.and_false, setL, reflag, picks, getL, if_true]
        rw [mix_false _ _ _ _ (by simp [hg]), List.take_left' (hg x), List.drop_left' (hg x)]
        simp only [List.take_left' (hg x), List.drop_left' (hg x), hs, ih _ q hq]
      | true =>
        simp only [narrow, h, Bool.and_true, sizeL, if_true] at hq
        simp only [narrow, h, Bool.and_true, setL, reflag, picks, getL, if_true]
        have hl : (q.take (n x)).length = n x := by rw [List.length_take]; omega
        rw [mix_true _ _ _ _ (by simp [hg]) (by omega), List.drop_left' (hg x)]
        simp only [List.take_left' hl, List.drop_left' hl]
        rw [ih _ (q.drop (n x)) (by rw [List.length_drop]; omega)]

theorem narrow_reflag (s : Nat → Bool) (l : List (Bool × α)) (q : List R) : narrow s (reflag l (setL n set (narrow s l) q)) = setL n set (narrow s l) q := by
  induction l generalizing s q with
  | nil => rfl
  | cons x l ih =>
    obtain ⟨b, x⟩ := x
    cases b with
    | false => simp only [narrow, Bool.false_and, setL, reflag, ih]
    | true => cases h : s 0 <;> simp only [narrow, h, Bool.and_false, Bool.and_true, setL, reflag, ih]

theorem narrow_snd (s : Nat → Bool) (l : List (Bool × α)) : (narrow s l).map (·.2) = l.map (·.2) := by
  induction l generalizing s with
  | nil => rfl
  | cons x l ih => simp only [narrow, List.map_cons, ih]

/-- The prior: the sum over the thawed objects. -/
def PriorL [Add R] [Zero R] (pr : α → R → Prop) : List (Bool × α) → R → Prop
  | [], v => v = 0
  | (false, _) :: l, v => PriorL pr l v
  | (true, x) :: l, v => ∃ a c, pr x a ∧ PriorL pr l c ∧ v = a + c

/-- What the frozen ones add stays the same. -/
theorem frozen_prior [Field R] (pr : α → R → Prop) (hpr : ∀ x a b, pr x a → pr x b → a = b) (s : Nat → Bool) (l : List (Bool × α)) (q : List R) (v v' : R)
    (h : PriorL pr l v) (h' : PriorL pr (reflag l (setL n set (narrow s l) q)) v') :
    ∃ u u', PriorL pr (narrow s l) u ∧ PriorL pr (setL n set (narrow s l) q) u' ∧ v' - v = u' - u := by
  induction l generalizing s q v v' with
  | nil => exact ⟨v, v', h, h', rfl⟩
  | cons x l ih =>
    obtain ⟨b, x⟩ := x
    cases b with
    | false =>
      simp only [narrow, Bool.false_and, setL, reflag, PriorL] at h h' ⊢
      exact ih _ q v v' h h'
    | true =>
      cases hs : s 0 with
      | false =>
        simp only [narrow, hs, Bool.and_false, setL, reflag, PriorL] at h h' ⊢
        obtain ⟨a, c, a1, a2, rfl⟩ := h
        obtain ⟨a', c', b1, b2, rfl⟩ := h'
        obtain ⟨u, u', e1, e2, e3⟩ := ih _ q c c' a2 b2
        rw [hpr x a a' a1 b1]
        exact ⟨u, u', e1, e2, by rw [← e3]; ring⟩
      | true =>
        simp only [narrow, hs, Bool.and_true, setL, reflag, PriorL] at h h' ⊢
        obtain ⟨a, c, a1, a2, rfl⟩ := h
        obtain ⟨a', c', b1, b2, rfl⟩ := h'
        obtain ⟨u, u', e1, e2, e3⟩ := ih _ _ c c' a2 b2
        exact ⟨a + u, a' + u', ⟨a, u, a1, e1, rfl⟩, ⟨a', u', b1, e2, rfl⟩, by linear_combination e3⟩

end generic

/-! ### Images and sources -/

/-- Number, setting and values of the parameters of an image. -/
def imgN (i : Image R) : Nat := numberOfParamsSubs i.par
def imgSet (i : Image R) (p : List R) : Image R := { i with par := (setParamsSubs i.par p).1 }
def imgGet (i : Image R) : List R := getParamsSubs i.par

/-- Number, setting and values of the parameters of a source. -/
def srcN : Option (Source R) → Nat
  | none => 0
  | some s => numberOfParams s.par
def srcSet : Option (Source R) → List R → Option (Source R)
  | none, _ => none
  | some s, p => some { s with par := (setParams s.par p).1 }
def srcGet : Option (Source R) → List R
  | none => []
  | some s => getParams s.par

theorem setImgs_eq (l : List (Bool × Image R)) (p : List R) : setImgs l p = setL imgN imgSet l p := by
  induction l generalizing p with
  | nil => rfl
  | cons x l ih =>
    obtain ⟨b, x⟩ := x
    cases b <;> simp only [setImgs, setL, ih] <;> rfl

theorem setSrcs_eq (l : List (Bool × Option (Source R))) (p : List R) : setSrcs l p = setL srcN srcSet l p := by
  induction l generalizing p with
  | nil => rfl
  | cons x l ih =>
    obtain ⟨b, x⟩ := x
    cases x with
    | none => cases b <;> simp only [setSrcs, setL, ih] <;> rfl
    | some x => cases b <;> simp only [setSrcs, setL, ih] <;> rfl

theorem sizeImgs (l : List (Bool × Image R)) : numberOfParamsSubs (imagesSubs l) = sizeL imgN l := by
  induction l with
  | nil => rfl
  | cons x l ih => simp only [imagesSubs, numberOfParamsSubs, sizeL, ih, numberOfParams, imgN]

theorem sizeSrcs (l : List (Bool × Option (Source R))) : numberOfParamsSubs (catalogSubs l) = sizeL srcN l := by
  induction l with
  | nil => rfl
  | cons x l ih =>
    obtain ⟨b, x⟩ := x
    cases x <;> simp [catalogSubs, numberOfParamsSubs, sizeL, ih, srcN]

theorem getImgs (l : List (Bool × Image R)) : getParamsSubs (imagesSubs l) = getL imgGet l := by
  induction l with
  | nil => rfl
  | cons x l ih => simp only [imagesSubs, getParamsSubs, getL, ih, getParams, imgGet]

theorem getSrcs (l : List (Bool × Option (Source R))) : getParamsSubs (catalogSubs l) = getL srcGet l := by
  induction l with
  | nil => rfl
  | cons x l ih =>
    obtain ⟨b, x⟩ := x
    cases x <;> simp [catalogSubs, getParamsSubs, getL, ih, srcGet]

/-- The thawed parameters of a tractor: are they of the group? -/
def members (g : Group) (T : Tractor R M) : List Bool :=
  (if T.imagesThawed then picks imgN g.images T.images else []) ++ (if T.catalogThawed then picks srcN g.sources T.catalog else [])

theorem members_length (g : Group) (T : Tractor R M) : (members g T).length = numberOfParams T.par := by
  rw [nParams, members, List.length_append, nImgs, nSrcs]
  cases T.imagesThawed <;> cases T.catalogThawed <;> simp [picks_length, sizeImgs, sizeSrcs]

theorem members_count (g : Group) (T : Tractor R M) : (members g T).count true = numberOfParams (focus g T).par := by
  rw [nParams, members, List.count_append, nImgs, nSrcs]
  cases h1 : T.imagesThawed <;> cases h2 : T.catalogThawed <;> simp [picks_count, sizeImgs, sizeSrcs, focus, h1, h2]

theorem reflag_self {α : Type} (l : List (Bool × α)) : reflag l l = l := by
  induction l with
  | nil => rfl
  | cons x l ih => simp only [reflag, ih]

theorem reflag_narrow {α : Type} (s : Nat → Bool) (l : List (Bool × α)) : reflag l (narrow s l) = l := by
  induction l generalizing s with
  | nil => rfl
  | cons x l ih => simp only [narrow, reflag, ih]

theorem getParams_parts (T : Tractor R M) :
    getParams T.par = (if T.imagesThawed then getL imgGet T.images else []) ++ (if T.catalogThawed then getL srcGet T.catalog else []) := by
  simp only [Tractor.par, getParams, getParamsSubs, getImgs, getSrcs]
  cases T.imagesThawed <;> cases T.catalogThawed <;> simp

theorem imgGet_length (x : Image R) : (imgGet x).length = imgN x := getParamsSubs_length _

theorem srcGet_length (x : Option (Source R)) : (srcGet x).length = srcN x := by
  cases x with
  | none => rfl
  | some s => exact getParams_length _

theorem imgSet_get (x : Image R) : imgSet x (imgGet x) = x := by
  unfold imgSet imgGet
  rw [setParamsSubs_id]

theorem srcSet_get (x : Option (Source R)) : srcSet x (srcGet x) = x := by
  cases x with
  | none => rfl
  | some s =>
    show some { s with par := (setParams s.par (getParams s.par)).1 } = some s
    rw [setParams_id]

/-- Setting the parameters of a group, in full. -/
theorem restore_setAll (g : Group) (T : Tractor R M) (q : List R) (hq : q.length = numberOfParams (focus g T).par) :
    restore T (setAll (focus g T) q) = setAll T (mix (members g T) (getParams T.par) q) ∧ focus g (restore T (setAll (focus g T) q)) = setAll (focus g T) q := by
  rw [nParams] at hq
  have e : q = q.take (nImgs (focus g T)) ++ q.drop (nImgs (focus g T)) := (List.take_append_drop _ _).symm
  have e1 : (q.take (nImgs (focus g T))).length = nImgs (focus g T) := by rw [List.length_take]; omega
  have e2 : (q.drop (nImgs (focus g T))).length = nSrcs (focus g T) := by rw [List.length_drop]; omega
  generalize q.take (nImgs (focus g T)) = a at e e1
  generalize q.drop (nImgs (focus g T)) = b at e e2
  subst e
  clear hq
  rw [setAll_parts _ a b e1 e2]
  unfold nImgs focus at e1
  unfold nSrcs focus at e2
  dsimp only at e1 e2
  rw [sizeImgs] at e1
  rw [sizeSrcs] at e2
  have hm : mix (members g T) (getParams T.par) (a ++ b) =
      (if T.imagesThawed then mix (picks imgN g.images T.images) (getL imgGet T.images) a else []) ++
      (if T.catalogThawed then mix (picks srcN g.sources T.catalog) (getL srcGet T.catalog) b else []) := by
    rw [members, getParams_parts, mix_append]
    · cases T.imagesThawed <;> cases T.catalogThawed <;> rfl
    · cases T.imagesThawed with
      | false => rfl
      | true => simp only [if_true]; rw [picks_length, getL_length imgN imgGet imgGet_length]
    · cases h : T.imagesThawed with
      | false => simpa [h] using e1
      | true => simpa [h, picks_count] using e1
  rw [hm, setAll_parts]
  · constructor
    · unfold restore parts focus
      dsimp only
      congr 1
      · cases h : T.imagesThawed with
        | false => exact reflag_narrow _ _
        | true =>
          simp only [if_true, setImgs_eq]
          exact setL_mix imgN imgSet imgGet imgGet_length imgSet_get _ _ a (by simpa [h] using e1)
      · cases h : T.catalogThawed with
        | false => exact reflag_narrow _ _
        | true =>
          simp only [if_true, setSrcs_eq]
          exact setL_mix srcN srcSet srcGet srcGet_length srcSet_get _ _ b (by simpa [h] using e2)
    · unfold restore parts focus
      dsimp only
      congr 1
      · cases h : T.imagesThawed with
        | false => simp only [Bool.false_eq_true, if_false, reflag_narrow]
        | true => simp only [if_true, setImgs_eq, narrow_reflag]
      · cases h : T.catalogThawed with
        | false => simp only [Bool.false_eq_true, if_false, reflag_narrow]
        | true => simp only [if_true, setSrcs_eq, narrow_reflag]
  · unfold nImgs
    cases h : T.imagesThawed with
    | false => rfl
    | true =>
      simp only [if_true]
      rw [mix_length _ _ _ (by rw [picks_length, getL_length imgN imgGet imgGet_length]) (by rw [picks_count]; simpa [h] using e1), picks_length, sizeImgs]
  · unfold nSrcs
    cases h : T.catalogThawed with
    | false => rfl
    | true =>
      simp only [if_true]
      rw [mix_length _ _ _ (by rw [picks_length, getL_length srcN srcGet srcGet_length]) (by rw [picks_count]; simpa [h] using e2), picks_length, sizeSrcs]

theorem restore_focus (g : Group) (T : Tractor R M) : restore T (focus g T) = T := by
  unfold restore focus
  dsimp only
  rw [reflag_narrow, reflag_narrow]

/-! ### The log-probability -/

section
variable [Field R] [LinearOrder R]

omit [LinearOrder R] in
theorem prior_imgs (l : List (Bool × Image R)) (v : R) : getLogPriorSubs (imagesSubs l) = .ok v ↔ PriorL (fun i a => getLogPriorSubs i.par = .ok a) l v := by
  induction l generalizing v with
  | nil => simp [imagesSubs, getLogPriorSubs, PriorL, eq_comm]
  | cons x l ih =>
    obtain ⟨b, x⟩ := x
    simp only [imagesSubs, prior_cons]
    cases b with
    | false => simp [PriorL, ih]
    | true => simp [PriorL, ih, getLogPrior]

/-- The prior of a source. -/
def priorSrc : Option (Source R) → R → Prop
  | none, a => a = 0
  | some s, a => getLogPrior s.par = .ok a

theorem prior_srcs (l : List (Bool × Option (Source R))) (v : R) : getLogPriorSubs (catalogSubs l) = .ok v ↔ PriorL priorSrc l v := by
  induction l generalizing v with
  | nil => simp [catalogSubs, getLogPriorSubs, PriorL, eq_comm]
  | cons x l ih =>
    rw [prior_catalog]
    obtain ⟨b, x⟩ := x
    cases b with
    | false =>
      simp only [PriorL, priorOf, ih]
      constructor
      · rintro ⟨a, c, h1, h2, rfl⟩
        injection h1 with h1
        rw [← h1, zero_add]
        exact h2
      · intro h
        exact ⟨0, v, rfl, h, (zero_add v).symm⟩
    | true =>
      cases x with
      | none =>
        simp only [PriorL, priorOf, ih, priorSrc]
        constructor
        · rintro ⟨a, c, h1, h2, rfl⟩
          injection h1 with h1
          exact ⟨a, c, h1.symm, h2, rfl⟩
        · rintro ⟨a, c, rfl, h2, rfl⟩
          exact ⟨0, c, rfl, h2, rfl⟩
      | some s => simp only [PriorL, priorOf, ih, priorSrc]

theorem likelihood_congr (W : World R M) (T T' : Tractor R M) (hi : T'.images.map (·.2) = T.images.map (·.2)) (hc : T'.catalog.map (·.2) = T.catalog.map (·.2))
    (hm : T'.modelMasks = T.modelMasks) (he : T'.expectModelMasks = T.expectModelMasks) :
    (∀ im, getModelImage W T' im none true = getModelImage W T im none true) ∧ getLogLikelihood W T' = getLogLikelihood W T := by
  have hid : T'.images.map (fun x => x.2.id) = T.images.map (fun x => x.2.id) := by
    have := congrArg (List.map (fun x : Image R => x.id)) hi
    rw [List.map_map, List.map_map] at this
    exact this
  have hmask : ∀ im src, maskFor T' im src = maskFor T im src := by
    intro im src
    unfold maskFor
    rw [hm, findIdx_map, findIdx_map, hid]
  have hp : ∀ im src, getModelPatch W T' im src = getModelPatch W T im src := by
    intro im src
    unfold getModelPatch
    rw [hmask, he]
  have ha : ∀ im srcs mod, addSources W T' im srcs mod = addSources W T im srcs mod := by
    intro im srcs
    induction srcs with
    | nil => intro mod; rfl
    | cons s srcs ih =>
      intro mod
      cases s with
      | none => exact ih mod
      | some s => simp only [addSources, hp, ih]
  have hmod : ∀ im, getModelImage W T' im none true = getModelImage W T im none true := by
    intro im
    simp only [getModelImage, ha, hc, Option.getD_none]
  refine ⟨hmod, ?_⟩
  unfold getLogLikelihood
  rw [hi]
  congr 1
  generalize T.images.map (·.2) = l
  generalize (0 : R) = acc
  induction l generalizing acc with
  | nil => rfl
  | cons im l ih => simp only [chisqLoop, getChiImage, hmod, ih]

theorem reflag_snd {α : Type} : ∀ (l l' : List (Bool × α)), l.length = l'.length → (reflag l l').map (·.2) = l'.map (·.2)
  | [], [], _ => rfl
  | (_, _) :: l, (_, _) :: l', h => by
    simp only [reflag, List.map_cons]
    rw [reflag_snd l l' (by simpa using h)]

theorem narrow_length {α : Type} (s : Nat → Bool) (l : List (Bool × α)) : (narrow s l).length = l.length := by
  induction l generalizing s with
  | nil => rfl
  | cons x l ih => simp [narrow, ih]

theorem prior_tractor (T : Tractor R M) (v : R) : getLogPrior T.par = .ok v ↔ ∃ a c,
    (if T.imagesThawed then PriorL (fun i a => getLogPriorSubs i.par = .ok a) T.images a else a = 0) ∧
    (if T.catalogThawed then PriorL priorSrc T.catalog c else c = 0) ∧ v = a + c := by
  have hnil : ∀ y : R, getLogPriorSubs (α := R) .nil = .ok y ↔ y = 0 := by
    intro y
    simp [getLogPriorSubs, eq_comm]
  simp only [Tractor.par, getLogPrior, prior_cons, prior_imgs, prior_srcs, hnil]
  cases T.imagesThawed <;> cases T.catalogThawed <;> simp

/-- The change of the log-probability of a tractor with frozen objects is that of the whole. -/
theorem focus_logProb (W : World R M) (g : Group) (T : Tractor R M) (q : List R) (hq : q.length = numberOfParams (focus g T).par) (L0 L1 : R)
    (P0 P1 : R) (hP0 : getLogPrior T.par = .ok P0) (hP1 : getLogPrior (restore T (setAll (focus g T) q)).par = .ok P1)
    (h0 : logProb W T = .ok (.fin L0)) (h1 : logProb W (restore T (setAll (focus g T) q)) = .ok (.fin L1)) :
    ∃ u0 u1, logProb W (focus g T) = .ok (.fin u0) ∧ logProb W (setAll (focus g T) q) = .ok (.fin u1) ∧ L1 - L0 = u1 - u0 := by
  have hpr : ∃ p0 p1, getLogPrior (focus g T).par = .ok p0 ∧ getLogPrior (setAll (focus g T) q).par = .ok p1 ∧ P1 - P0 = p1 - p0 := by
    rw [nParams] at hq
    have e : q = q.take (nImgs (focus g T)) ++ q.drop (nImgs (focus g T)) := (List.take_append_drop _ _).symm
    have e1 : (q.take (nImgs (focus g T))).length = nImgs (focus g T) := by rw [List.length_take]; omega
    have e2 : (q.drop (nImgs (focus g T))).length = nSrcs (focus g T) := by rw [List.length_drop]; omega
    generalize q.take (nImgs (focus g T)) = a at e e1
    generalize q.drop (nImgs (focus g T)) = b at e e2
    subst e
    clear h1 h0
    rw [setAll_parts _ a b e1 e2] at hP1 ⊢
    rw [prior_tractor] at hP0 hP1
    obtain ⟨x, y, x1, x2, rfl⟩ := hP0
    obtain ⟨x', y', x1', x2', rfl⟩ := hP1
    simp only [prior_tractor]
    simp only [restore, parts, focus, setImgs_eq, setSrcs_eq] at x1' x2' ⊢
    have A : ∃ u u', (if T.imagesThawed then PriorL (fun i a => getLogPriorSubs i.par = .ok a) (narrow g.images T.images) u else u = 0) ∧
        (if T.imagesThawed then PriorL (fun i a => getLogPriorSubs i.par = .ok a) (if T.imagesThawed then setL imgN imgSet (narrow g.images T.images) a else
          narrow g.images T.images) u' else u' = 0) ∧ x' - x = u' - u := by
      cases h : T.imagesThawed with
      | false =>
        simp only [h, Bool.false_eq_true, if_false] at x1 x1' ⊢
        exact ⟨0, 0, rfl, rfl, by rw [x1, x1']⟩
      | true =>
        simp only [h, if_true] at x1 x1' ⊢
        exact frozen_prior imgN imgSet _ (fun i a b ha hb => by rw [ha] at hb; exact Except.ok.inj hb) g.images T.images a x x' x1 x1'
    have B : ∃ u u', (if T.catalogThawed then PriorL priorSrc (narrow g.sources T.catalog) u else u = 0) ∧
        (if T.catalogThawed then PriorL priorSrc (if T.catalogThawed then setL srcN srcSet (narrow g.sources T.catalog) b else
          narrow g.sources T.catalog) u' else u' = 0) ∧ y' - y = u' - u := by
      cases h : T.catalogThawed with
      | false =>
        simp only [h, Bool.false_eq_true, if_false] at x2 x2' ⊢
        exact ⟨0, 0, rfl, rfl, by rw [x2, x2']⟩
      | true =>
        simp only [h, if_true] at x2 x2' ⊢
        refine frozen_prior srcN srcSet _ (fun i a b ha hb => ?_) g.sources T.catalog b y y' x2 x2'
        cases i with
        | none => exact (show a = 0 from ha).trans (show b = 0 from hb).symm
        | some s =>
          have ha' : getLogPrior s.par = .ok a := ha
          rw [show getLogPrior s.par = .ok b from hb] at ha'
          exact (Except.ok.inj ha').symm
    obtain ⟨u, u', a1, a2, a3⟩ := A
    obtain ⟨w, w', b1, b2, b3⟩ := B
    exact ⟨u + w, u' + w', ⟨u, w, a1, b1, rfl⟩, ⟨u', w', a2, b2, rfl⟩, by linear_combination a3 + b3⟩
  obtain ⟨p0, p1, g0, g1, g2⟩ := hpr
  have hs := (setAll_ok (focus g T) q).1
  have l0 := (likelihood_congr W T (focus g T) (narrow_snd _ _) (narrow_snd _ _) rfl rfl).2
  have l1 := (likelihood_congr W (setAll (focus g T) q) (restore T (setAll (focus g T) q))
    (reflag_snd _ _ (by rw [← hs.images.length_eq]; exact (narrow_length _ _).symm))
    (reflag_snd _ _ (by rw [← hs.catalog.length_eq]; exact (narrow_length _ _).symm)) rfl rfl).2
  unfold logProb at h0 h1 ⊢
  rw [hP0] at h0
  rw [hP1, l1] at h1
  rw [g0, g1, l0]
  cases k0 : getLogLikelihood W T with
  | error e => rw [k0] at h0; simp [getLogProb, Except.map] at h0
  | ok v0 =>
    cases k1 : getLogLikelihood W (setAll (focus g T) q) with
    | error e => rw [k1] at h1; simp [getLogProb, Except.map] at h1
    | ok v1 =>
      rw [k0] at h0
      rw [k1] at h1
      simp only [getLogProb, Except.map, Num.add, Num.isNan, Bool.false_eq_true, if_false, Except.ok.injEq, Num.fin.injEq] at h0 h1 ⊢
      exact ⟨_, _, rfl, rfl, by rw [← h0, ← h1]; linear_combination g2⟩

end

end Verif.Fit
