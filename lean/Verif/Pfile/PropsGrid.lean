import Mathlib.Data.Finset.Prod
import Mathlib.Data.Fintype.Card
import Verif.Pfile.Grid

/-!
# C146: files of fitted PsfEx models
-/

namespace Verif.Pfile

open Verif

variable {R S : Type}

/-- `a` is the image of the `i`th parameter of the grid `pp` (ny x nx x parameters). -/
def IsPlane (pp : List (List (List R))) (i : Nat) (a : List (List R)) : Prop :=
  a.length = pp.length ∧ ∀ (y : Nat) (row : List (List R)), pp[y]? = some row →
    ∃ r, a[y]? = some r ∧ r.length = row.length ∧ ∀ (x : Nat) (p : List R), row[x]? = some p → r[x]? = p[i]?

/-- A saved grid: `ny` rows of `nx` lists of `n` parameters. -/
structure Saved (s : Psf.Varying.State R S) (n : Nat) (q : List R) (pp : List (List (List R))) (xx yy : List R) : Prop where
  data : s.splinedata = some (pp, xx, yy)
  rows : pp.length = s.ny
  cols : ∀ row ∈ pp, row.length = s.nx
  pars : ∀ row ∈ pp, ∀ p ∈ row, p.length = n
  first : ∃ row rest, pp = (q :: row) :: rest

/-- What a file of the grid holds apart from the parameters. -/
def HeaderOf (cls psfcls : String) (K : Nat) (s : Psf.Varying.State R S) (nms : List Name) (xx yy : List R) (f : GridFile R) : Prop :=
  f.psfexT = cls ∧ f.psfType = psfcls ∧ f.W = s.W ∧ f.H = s.H ∧ f.K = K ∧ f.nx = s.nx ∧ f.ny = s.ny ∧ f.args = nms ∧
    column f.cols "xx".toList = some (.vec xx) ∧ column f.cols "yy".toList = some (.vec yy)

theorem column_set (cols : List (Name × Col R)) (a b : Name) (c : Col R) : column (setCol cols a c) b = if a = b then some c else column cols b := by
  unfold column setCol
  by_cases h : a = b <;> simp [h]

theorem filterMap_all {l : List (List R)} {i n : Nat} (h : ∀ p ∈ l, p.length = n) (hi : i < n) :
    (l.filterMap (·[i]?)).length = l.length ∧ ∀ (x : Nat) (p : List R), l[x]? = some p → (l.filterMap (·[i]?))[x]? = p[i]? := by
  induction l with
  | nil => simp
  | cons a l ih =>
    obtain ⟨h1, h2⟩ := ih (fun p hp => h p (by simp [hp]))
    have ha : a[i]? = some (a[i]'(by rw [h a (by simp)]; exact hi)) := List.getElem?_eq_getElem _
    rw [List.filterMap_cons, ha]
    dsimp only
    refine ⟨by simp [h1], fun x p hp => ?_⟩
    cases x with
    | zero => simp at hp; subst hp; simp [ha]
    | succ x => simp at hp ⊢; exact h2 x p hp

/-- The image of a parameter. -/
def planeVal (pp : List (List (List R))) (i : Nat) : List (List R) := pp.map (fun row => row.filterMap (·[i]?))

theorem planeVal_is (pp : List (List (List R))) (n i : Nat) (h : ∀ row ∈ pp, ∀ p ∈ row, p.length = n) (hi : i < n) : IsPlane pp i (planeVal pp i) := by
  refine ⟨by simp [planeVal], fun y row hy => ⟨row.filterMap (·[i]?), by simp [planeVal, hy], ?_⟩⟩
  exact filterMap_all (h row (List.mem_of_getElem? hy)) hi

theorem planeOf_ok (pp : List (List (List R))) (n i : Nat) (hi : i < n) : planeOf pp i n = .ok (planeVal pp i) := by
  unfold planeOf; rw [if_pos hi]; rfl

theorem plainCols_ok (pp : List (List (List R))) (n : Nat) (l : List (Name × Nat)) (hl : ∀ e ∈ l, e.2 < n) (hd : (l.map (·.1)).Nodup)
    (cols : List (Name × Col R)) : ∃ out, plainCols pp n l cols = .ok out ∧ (∀ e ∈ l, column out e.1 = some (.plane (planeVal pp e.2))) ∧
      ∀ nm, nm ∉ l.map (·.1) → column out nm = column cols nm := by
  induction l generalizing cols with
  | nil => exact ⟨cols, rfl, by simp, by simp⟩
  | cons e l ih =>
    obtain ⟨nm, i⟩ := e
    rw [List.map_cons, List.nodup_cons] at hd
    obtain ⟨out, h1, h2, h3⟩ := ih (fun e he => hl e (by simp [he])) hd.2 (setCol cols nm (.plane (planeVal pp i)))
    refine ⟨out, ?_, ?_, ?_⟩
    · rw [plainCols, planeOf_ok pp n i (hl (nm, i) (by simp))]; exact h1
    · intro e he
      rcases List.mem_cons.1 he with rfl | he
      · rw [h3 nm hd.1, column_set, if_pos rfl]
      · exact h2 e he
    · intro nm' hn
      rw [List.map_cons, List.mem_cons, not_or] at hn
      rw [h3 nm' hn.2, column_set, if_neg (fun h => hn.1 h.symm)]

theorem toFits_start (cls psfcls : String) (K : Nat) (names : List R → Except PyErr (List Name)) (s : Psf.Varying.State R S) (merge : Bool) (n : Nat)
    (q : List R) (pp : List (List (List R))) (xx yy : List R) (hs : Saved s n q pp xx yy) (nms : List Name) (hn : names q = .ok nms) :
    toFits cls psfcls K names s merge =
      Except.map (fun cols => ⟨cls, psfcls, s.W, s.H, K, s.nx, s.ny, nms, cols⟩)
        (if merge then
          if ¬ K < 10 then .error .assertion
          else
            match checkNames K nms with
            | .error e => .error e
            | .ok () =>
              if (nms.map List.dropLast).dedup.length * K = n then
                mergedCols nms pp n K (nms.map List.dropLast).dedup (setCol (setCol [] "xx".toList (.vec xx)) "yy".toList (.vec yy))
              else .error .assertion
        else plainCols pp n nms.zipIdx (setCol (setCol [] "xx".toList (.vec xx)) "yy".toList (.vec yy))) := by
  obtain ⟨row, rest, hp⟩ := hs.first
  have hq : q.length = n := hs.pars (q :: row) (by simp [hp]) q (by simp)
  have hc : pp.all (fun row => row.length = s.nx) = true := by
    rw [List.all_eq_true]
    intro r hr
    exact decide_eq_true (hs.cols r hr)
  unfold toFits
  rw [hs.data]
  dsimp only
  rw [if_neg (not_not.2 hs.rows), if_neg (not_not.2 hc)]
  subst hp
  dsimp only
  rw [hn]
  dsimp only
  rw [hq]
  rfl

/-- **C146, writing.** The grid of fitted parameters is written as one column per parameter: the column of the name of parameter `i` is the image of its
values; the grid coordinates, the names and the attributes are written too. -/
theorem C146_plain (cls psfcls : String) (K : Nat) (names : List R → Except PyErr (List Name)) (s : Psf.Varying.State R S) (n : Nat)
    (q : List R) (pp : List (List (List R))) (xx yy : List R) (hs : Saved s n q pp xx yy) (nms : List Name) (hn : names q = .ok nms)
    (hl : nms.length = n) (hd : nms.Nodup) (hx : "xx".toList ∉ nms) (hy : "yy".toList ∉ nms) :
    ∃ f, toFits cls psfcls K names s false = .ok f ∧ HeaderOf cls psfcls K s nms xx yy f ∧
      ∀ (i : Nat) (nm : Name), nms[i]? = some nm → ∃ a, column f.cols nm = some (.plane a) ∧ IsPlane pp i a := by
  rw [toFits_start cls psfcls K names s false n q pp xx yy hs nms hn]
  have hz : nms.zipIdx.map (·.1) = nms := by simp
  obtain ⟨out, h1, h2, h3⟩ := plainCols_ok pp n nms.zipIdx
    (by
      intro e he
      have := List.snd_lt_of_mem_zipIdx he
      omega)
    (by rw [hz]; exact hd) (setCol (setCol [] "xx".toList (.vec xx)) "yy".toList (.vec yy))
  rw [if_neg (by simp), h1]
  refine ⟨_, rfl, ⟨rfl, rfl, rfl, rfl, rfl, rfl, rfl, rfl, ?_, ?_⟩, fun i nm hi => ?_⟩
  · dsimp only; rw [h3 _ (by rw [hz]; exact hx), column_set, if_neg (by decide), column_set, if_pos rfl]
  · dsimp only; rw [h3 _ (by rw [hz]; exact hy), column_set, if_pos rfl]
  · refine ⟨_, h2 (nm, i) (by rw [List.mem_zipIdx_iff_getElem?]; exact hi), planeVal_is pp n i hs.pars ?_⟩
    have := (List.getElem?_eq_some_iff.1 hi).1
    omega

theorem checkNames_ok (K : Nat) (hK : K < 10) (nms : List Name) (h : ∀ nm ∈ nms, ∃ b k, k < K ∧ nm = b ++ [digit k]) : checkNames K nms = .ok () := by
  induction nms with
  | nil => rfl
  | cons nm l ih =>
    obtain ⟨b, k, hk, e⟩ := h nm (by simp)
    rw [checkNames, e, List.getLast?_append]
    simp only [List.getLast?_singleton, Option.some_or]
    rw [if_pos]
    · exact ih (fun nm hnm => h nm (by simp [hnm]))
    · unfold digits
      rw [List.mem_map]
      exact ⟨k, by rw [List.mem_range]; omega, rfl⟩

/-- If there are as many names as names without their digit times `K`, every digit occurs with every name. -/
theorem all_present (K : Nat) (nms : List Name) (h : ∀ nm ∈ nms, ∃ b k, k < K ∧ nm = b ++ [digit k]) (hd : nms.Nodup)
    (hc : (nms.map List.dropLast).dedup.length * K = nms.length) (b : Name) (hb : b ∈ nms.map List.dropLast) (k : Nat) (hk : k < K) :
    b ++ [digit k] ∈ nms := by
  classical
  let B : Finset Name := (nms.map List.dropLast).toFinset
  let I : Finset Name := (B ×ˢ Finset.range K).image (fun e => e.1 ++ [digit e.2])
  have hsub : nms.toFinset ⊆ I := by
    intro nm hm
    rw [List.mem_toFinset] at hm
    obtain ⟨b, k, hk, e⟩ := h nm hm
    refine Finset.mem_image.2 ⟨(b, k), Finset.mem_product.2 ⟨?_, Finset.mem_range.2 hk⟩, e.symm⟩
    refine List.mem_toFinset.2 (List.mem_map.2 ⟨nm, hm, ?_⟩)
    rw [e]
    simp
  have hcard : I.card ≤ nms.toFinset.card := by
    refine Finset.card_image_le.trans ?_
    rw [Finset.card_product, Finset.card_range, List.toFinset_card_of_nodup hd, ← hc, List.card_toFinset]
  have := Finset.eq_of_subset_of_card_le hsub hcard
  rw [← List.mem_toFinset, this]
  exact Finset.mem_image.2 ⟨(b, k), Finset.mem_product.2 ⟨List.mem_toFinset.2 hb, Finset.mem_range.2 hk⟩, rfl⟩

theorem component_ok (nms : List Name) (hd : nms.Nodup) (pp : List (List (List R))) (n : Nat) (hl : nms.length = n) (b : Name) (k i : Nat)
    (hi : nms[i]? = some (b ++ [digit k])) : component nms pp n b k = .ok (planeVal pp i) := by
  have hlt := (List.getElem?_eq_some_iff.1 hi).1
  have hf : (nms.zipIdx.reverse.find? (fun e => e.1 = b ++ [digit k])).map (·.2) = some i := by
    cases h : nms.zipIdx.reverse.find? (fun e => e.1 = b ++ [digit k]) with
    | none =>
      rw [List.find?_eq_none] at h
      exact absurd (decide_eq_true rfl) (h (b ++ [digit k], i) (by rw [List.mem_reverse, List.mem_zipIdx_iff_getElem?]; exact hi))
    | some e =>
      have h1 := List.mem_of_find?_eq_some h
      rw [List.mem_reverse, List.mem_zipIdx_iff_getElem?] at h1
      have h2 : e.1 = b ++ [digit k] := of_decide_eq_true (List.find?_some h :)
      rw [h2] at h1
      have : i = e.2 := (List.getElem?_inj hlt hd).1 (hi.trans h1.symm)
      simp [this]
  unfold component
  rw [hf]
  exact planeOf_ok pp n i (by omega)

theorem mapM_ok {A B : Type} (f : A → Except PyErr B) (g : A → B) (l : List A) (h : ∀ a ∈ l, f a = .ok (g a)) : l.mapM f = .ok (l.map g) := by
  induction l with
  | nil => rfl
  | cons a l ih =>
    rw [List.mapM_cons, h a (by simp), ih (fun a ha => h a (by simp [ha]))]
    rfl

theorem mergedCols_ok (nms : List Name) (pp : List (List (List R))) (n K : Nat) (g : Name → List (List (List R))) (bases : List Name)
    (h : ∀ b ∈ bases, (List.range K).mapM (component nms pp n b) = .ok (g b)) (cols : List (Name × Col R)) :
    ∃ out, mergedCols nms pp n K bases cols = .ok out ∧ ∀ nm, column out nm = if nm ∈ bases then some (.cube (g nm)) else column cols nm := by
  induction bases generalizing cols with
  | nil => exact ⟨cols, rfl, by simp⟩
  | cons b l ih =>
    obtain ⟨out, h1, h2⟩ := ih (fun b hb => h b (by simp [hb])) (setCol cols b (.cube (g b)))
    refine ⟨out, ?_, fun nm => ?_⟩
    · rw [mergedCols, h b (by simp)]; exact h1
    · rw [h2, column_set]
      by_cases e : b = nm
      · subst e; simp
      · have : ¬ nm = b := fun h => e h.symm
        simp [e, this]

/-- **C146, merged columns.** With `merge=True` the parameters whose names differ in the last digit are written as one column of `K` images: image `k` of
the column `b` has the values of the parameter called `b` followed by `k`.  For fewer than 10 components, and names that end in the number of the component,
as many for each component. -/
theorem C146_merged (cls psfcls : String) (K : Nat) (hK : K < 10) (names : List R → Except PyErr (List Name)) (s : Psf.Varying.State R S) (n : Nat)
    (q : List R) (pp : List (List (List R))) (xx yy : List R) (hs : Saved s n q pp xx yy) (nms : List Name) (hn : names q = .ok nms)
    (hl : nms.length = n) (hd : nms.Nodup) (hk : ∀ nm ∈ nms, ∃ b k, k < K ∧ nm = b ++ [digit k])
    (hc : (nms.map List.dropLast).dedup.length * K = n) (hx : "xx".toList ∉ nms.map List.dropLast) (hy : "yy".toList ∉ nms.map List.dropLast) :
    ∃ f, toFits cls psfcls K names s true = .ok f ∧ HeaderOf cls psfcls K s nms xx yy f ∧
      ∀ (b : Name) (k i : Nat), k < K → nms[i]? = some (b ++ [digit k]) →
        ∃ c a, column f.cols b = some (.cube c) ∧ c.length = K ∧ c[k]? = some a ∧ IsPlane pp i a := by
  rw [toFits_start cls psfcls K names s true n q pp xx yy hs nms hn]
  rw [if_pos rfl, if_neg (by simpa using hK), checkNames_ok K hK nms hk]
  dsimp only
  rw [if_pos hc]
  have hidx : ∀ b ∈ nms.map List.dropLast, ∀ k < K, nms[nms.idxOf (b ++ [digit k])]? = some (b ++ [digit k]) := by
    intro b hb k hk'
    have hm := all_present K nms hk hd (hc.trans hl.symm) b hb k hk'
    rw [List.getElem?_eq_getElem (List.idxOf_lt_length_of_mem hm), List.getElem_idxOf]
  obtain ⟨out, h1, h2⟩ := mergedCols_ok nms pp n K (fun b => (List.range K).map (fun k => planeVal pp (nms.idxOf (b ++ [digit k]))))
    (nms.map List.dropLast).dedup
    (by
      intro b hb
      rw [List.mem_dedup] at hb
      refine mapM_ok _ _ _ fun k hk' => ?_
      rw [List.mem_range] at hk'
      exact component_ok nms hd pp n hl b k _ (hidx b hb k hk'))
    (setCol (setCol [] "xx".toList (.vec xx)) "yy".toList (.vec yy))
  rw [h1]
  refine ⟨_, rfl, ⟨rfl, rfl, rfl, rfl, rfl, rfl, rfl, rfl, ?_, ?_⟩, fun b k i hk' hi => ?_⟩
  · dsimp only; rw [h2, if_neg (by rw [List.mem_dedup]; exact hx), column_set, if_neg (by decide), column_set, if_pos rfl]
  · dsimp only; rw [h2, if_neg (by rw [List.mem_dedup]; exact hy), column_set, if_pos rfl]
  · have hb : b ∈ nms.map List.dropLast := List.mem_map.2 ⟨b ++ [digit k], List.mem_of_getElem? hi, by simp⟩
    have hlt := (List.getElem?_eq_some_iff.1 hi).1
    have he : i = nms.idxOf (b ++ [digit k]) := (List.getElem?_inj hlt hd).1 (hi.trans (hidx b hb k hk').symm)
    refine ⟨_, planeVal pp i, by dsimp only; rw [h2, if_pos (List.mem_dedup.2 hb)], by simp, ?_, planeVal_is pp n i hs.pars (by omega)⟩
    rw [List.getElem?_map, List.getElem?_range hk', Option.map_some, ← he]

/-- The conditions on the names hold of both PSF classes, for 1 to 9 components. -/
theorem C146_names (K : Nat) (h1 : 0 < K) (h9 : K < 10) (nms : List Name) (h : nms = mogNames K ∨ nms = ellipseNames K) :
    nms.length = 6 * K ∧ nms.Nodup ∧ "xx".toList ∉ nms ∧ "yy".toList ∉ nms ∧ (∀ nm ∈ nms, ∃ b k, k < K ∧ nm = b ++ [digit k]) ∧
      (nms.map List.dropLast).dedup.length * K = 6 * K ∧ "xx".toList ∉ nms.map List.dropLast ∧ "yy".toList ∉ nms.map List.dropLast := by
  have hk : ∀ nm ∈ nms, ∃ b k, k < K ∧ nm = b ++ [digit k] := by
    intro nm hm
    rcases h with rfl | rfl
    all_goals
      simp only [mogNames, ellipseNames, List.mem_append, List.mem_map, List.mem_flatMap, List.mem_range, List.mem_cons, List.not_mem_nil, or_false] at hm
      rcases hm with (⟨k, hk, rfl⟩ | ⟨k, hk, rfl | rfl⟩) | ⟨k, hk, rfl | rfl | rfl⟩
      all_goals exact ⟨_, k, hk, rfl⟩
  suffices hrest : nms.length = 6 * K ∧ nms.Nodup ∧ "xx".toList ∉ nms ∧ "yy".toList ∉ nms ∧
      (nms.map List.dropLast).dedup.length * K = 6 * K ∧ "xx".toList ∉ nms.map List.dropLast ∧ "yy".toList ∉ nms.map List.dropLast by
    exact ⟨hrest.1, hrest.2.1, hrest.2.2.1, hrest.2.2.2.1, hk, hrest.2.2.2.2⟩
  clear hk
  have hm : ∀ K : Fin 10, 0 < K.val → ∀ nms ∈ [mogNames K.val, ellipseNames K.val], nms.length = 6 * K.val ∧ nms.Nodup ∧ "xx".toList ∉ nms ∧
      "yy".toList ∉ nms ∧ (nms.map List.dropLast).dedup.length * K.val = 6 * K.val ∧ "xx".toList ∉ nms.map List.dropLast ∧
      "yy".toList ∉ nms.map List.dropLast := by
    decide +kernel
  exact hm ⟨K, h9⟩ h1 nms (by simpa using h)

/-- **C146, many components**: `merge=True` with 10 components or more raises AssertionError. -/
theorem C146_merge_limit_false (cls psfcls : String) (K : Nat) (hK : 10 ≤ K) (names : List R → Except PyErr (List Name)) (s : Psf.Varying.State R S) (n : Nat)
    (q : List R) (pp : List (List (List R))) (xx yy : List R) (hs : Saved s n q pp xx yy) (nms : List Name) (hn : names q = .ok nms) :
    toFits cls psfcls K names s true = .error .assertion := by
  rw [toFits_start cls psfcls K names s true n q pp xx yy hs nms hn, if_pos rfl, if_pos (by omega)]
  rfl

/-- **C146, reading**: no file can be read by `fromFits`; one written by `toFits` of the class as it is called now raises AssertionError. -/
theorem C146_read_false (K : Nat) (psfcls : String) (names : List R → Except PyErr (List Name)) (s : Psf.Varying.State R S) (merge : Bool) (f : GridFile R)
    (h : toFits "tractor.psfex.VaryingGaussianPsfEx" psfcls K names s merge = .ok f) :
    (fromFits f : Except PyErr (Psf.Varying.State R S)) = .error .assertion ∧
      ∀ g : GridFile R, ∃ e, (fromFits g : Except PyErr (Psf.Varying.State R S)) = .error e := by
  have ht : f.psfexT = "tractor.psfex.VaryingGaussianPsfEx" := by
    unfold toFits at h
    split at h
    · cases h
    · split at h
      · cases h
      · split at h
        · cases h
        · split at h
          · split at h
            · cases h
            · dsimp only at h
              unfold Except.map at h
              split at h
              · cases h
              · injection h with h; rw [← h]
          · cases h
  refine ⟨?_, fun g => ?_⟩
  · unfold fromFits
    rw [ht, if_neg (by decide +kernel)]
  · unfold fromFits
    by_cases hg : strip g.psfexT = "tractor.psfex.PsfEx"
    · exact ⟨_, if_pos hg⟩
    · exact ⟨_, if_neg hg⟩

/-! Examples: one component, a grid of 1 x 2 points. -/

def exGrid : Psf.Varying.State ℚ Unit :=
  ⟨100, 50, 2, 1, none, true, some ([[[1, 0, 0, 2, 3, 4], [1, 0, 0, 5, 6, 7]]], [0, 100], [0])⟩

theorem exSaved : Saved exGrid 6 [1, 0, 0, 2, 3, 4] [[[1, 0, 0, 2, 3, 4], [1, 0, 0, 5, 6, 7]]] [0, 100] [0] :=
  ⟨rfl, rfl, by decide, by decide, _, _, rfl⟩

example : ∃ f, toFits "tractor.psfex.VaryingGaussianPsfEx" "tractor.psf.GaussianMixturePSF" 1 (fun _ => .ok (mogNames 1)) exGrid true = .ok f ∧
    column f.cols "varxx".toList = some (.cube [[[2, 5]]]) ∧ column f.cols "xx".toList = some (.vec [0, 100]) := ⟨_, rfl, rfl, rfl⟩

example : ∃ f, toFits "tractor.psfex.VaryingGaussianPsfEx" "tractor.psf.GaussianMixturePSF" 1 (fun _ => .ok (mogNames 1)) exGrid false = .ok f ∧
    column f.cols "varxy0".toList = some (.plane [[4, 7]]) := ⟨_, rfl, rfl⟩

example : ∃ f, toFits "c" "p" 1 (fun _ => .ok (mogNames 1)) exGrid true = .ok f ∧ ∀ (b : Name) (k i : Nat), k < 1 → (mogNames 1)[i]? = some (b ++ [digit k]) →
    ∃ c a, column f.cols b = some (.cube c) ∧ c.length = 1 ∧ c[k]? = some a ∧ IsPlane [[[1, 0, 0, 2, 3, 4], [1, 0, 0, 5, 6, 7]]] i a := by
  obtain ⟨h1, h2, h3, h4, h5, h6, h7, h8⟩ := C146_names 1 (by omega) (by omega) (mogNames 1) (.inl rfl)
  obtain ⟨f, g1, -, g3⟩ := C146_merged "c" "p" 1 (by omega) (fun _ => .ok (mogNames 1)) exGrid 6 _ _ _ _ exSaved (mogNames 1) rfl h1 h2 h5 h6 h7 h8
  exact ⟨f, g1, g3⟩

example : ∃ f, toFits "c" "p" 1 (fun _ => .ok (mogNames 1)) exGrid false = .ok f ∧ ∀ (i : Nat) (nm : Name), (mogNames 1)[i]? = some nm →
    ∃ a, column f.cols nm = some (.plane a) ∧ IsPlane [[[1, 0, 0, 2, 3, 4], [1, 0, 0, 5, 6, 7]]] i a := by
  obtain ⟨h1, h2, h3, h4, -⟩ := C146_names 1 (by omega) (by omega) (mogNames 1) (.inl rfl)
  obtain ⟨f, g1, -, g3⟩ := C146_plain "c" "p" 1 (fun _ => .ok (mogNames 1)) exGrid 6 _ _ _ _ exSaved (mogNames 1) rfl h1 h2 h3 h4
  exact ⟨f, g1, g3⟩

example : toFits "c" "p" 12 (fun _ => .ok (mogNames 1)) exGrid true = .error .assertion :=
  C146_merge_limit_false "c" "p" 12 (by omega) _ exGrid 6 _ _ _ _ exSaved (mogNames 1) rfl

/-- A file of the time when the class was called `PsfEx`: NameError. -/
example : (fromFits (⟨"tractor.psfex.PsfEx", "tractor.psf.GaussianMixturePSF", 100, 50, 1, 2, 1, mogNames 1, []⟩ : GridFile ℚ) :
    Except PyErr (Psf.Varying.State ℚ Unit)) = .error .nameErr := by
  unfold fromFits
  rw [if_pos (by decide +kernel)]

end Verif.Pfile
