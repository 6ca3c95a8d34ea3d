import Verif.Ceres.OneImage
import Verif.Engine.Lemmas3
import Verif.Patch.Lemmas

/-!
# Lemmas: derivatives with respect to one image
-/

namespace Verif.Ceres

open Verif Verif.Params Verif.Patches Verif.Engine

variable {R M : Type}

theorem mem_given (parami : Nat) (ds : List (Deriv R)) (k : Nat) (p : Patch R) :
    (k, p) ∈ given parami ds ↔ ∃ j, ds[j]? = some (.patch p) ∧ k = parami + j := by
  simp only [given, List.mem_filterMap]
  constructor
  · rintro ⟨⟨d, j⟩, h1, h2⟩
    have h1 := List.mem_zipIdx_iff_getElem?.1 h1
    cases d with
    | patch q =>
      simp only [Option.some.injEq, Prod.mk.injEq] at h2
      exact ⟨j, by rw [← h2.2]; exact h1, h2.1.symm⟩
    | none => simp at h2
    | false => simp at h2
  · rintro ⟨j, h1, rfl⟩
    exact ⟨(.patch p, j), List.mem_zipIdx_iff_getElem?.2 h1, rfl⟩

theorem mem_needed (ds : List (Deriv R)) (j : Nat) : j ∈ needed ds ↔ ds[j]? = some .false := by
  simp only [needed, List.mem_filterMap]
  constructor
  · rintro ⟨⟨d, i⟩, h1, h2⟩
    have h1 := List.mem_zipIdx_iff_getElem?.1 h1
    cases d with
    | patch q => simp at h2
    | none => simp at h2
    | false => simp only [Option.some.injEq] at h2; subst h2; exact h1
  · intro h
    exact ⟨(.false, j), List.mem_zipIdx_iff_getElem?.2 h, rfl⟩

/-- Indices picked from an enumerated list are distinct. -/
theorem nodup_filterMap_zipIdx {β γ : Type} (f : β × Nat → Option γ) (key : γ → Nat)
    (hf : ∀ t g, f t = some g → ∃ c, key g = c + t.2 ∧ ∀ t' g', f t' = some g' → key g' = c + t'.2) :
    ∀ (l : List β) (n : Nat), (((l.zipIdx n).filterMap f).map key).Nodup
  | [], n => by simp
  | b :: l, n => by
    have ih := nodup_filterMap_zipIdx f key hf l (n + 1)
    rw [List.zipIdx_cons, List.filterMap_cons]
    cases h : f (b, n) with
    | none => exact ih
    | some g =>
      obtain ⟨c, h1, h2⟩ := hf _ _ h
      rw [List.map_cons, List.nodup_cons]
      refine ⟨?_, ih⟩
      intro hm
      obtain ⟨g', hg', he⟩ := List.mem_map.1 hm
      obtain ⟨t, ht, ht'⟩ := List.mem_filterMap.1 hg'
      have := h2 _ _ ht'
      have hb := List.mem_zipIdx ht
      simp only at h1
      omega

theorem nodup_given (parami : Nat) (ds : List (Deriv R)) : ((given parami ds).map (·.1)).Nodup := by
  refine nodup_filterMap_zipIdx _ _ (fun t g _ => ⟨parami, ?_, fun t' g' h' => ?_⟩) ds 0
  · rename_i h
    rcases t with ⟨d, j⟩
    cases d <;> simp at h
    rw [← h]
  · rcases t' with ⟨d, j⟩
    cases d <;> simp at h'
    rw [← h']

theorem nodup_needed (ds : List (Deriv R)) : (needed ds).Nodup := by
  have := nodup_filterMap_zipIdx (fun t : Deriv R × Nat => match t.1 with
    | .patch _ => none
    | .none => none
    | .false => some t.2) id (fun t g h => ⟨0, by
      rcases t with ⟨d, j⟩
      cases d <;> simp at h
      simp [h], fun t' g' h' => by
      rcases t' with ⟨d, j⟩
      cases d <;> simp at h'
      simp [h']⟩) ds 0
  rwa [List.map_id] at this

theorem stepLoop_ok [Field R] (model : Tractor R M → Image R → Except PyErr (Arr R)) (parami i : Nat)
    (b : Bool) (T : Tractor R M) (img : Image R) (hi : T.images[i]? = some (b, img))
    (hsteps : (getStepSizesSubs img.par).length = numberOfParamsSubs img.par) (mod0 : Arr R)
    (hm : model T img = .ok mod0) (hm0 : ∀ par, ∃ m1,
      model (withImage T i { img with par := par }) { img with par := par } = .ok m1 ∧
      m1.h = mod0.h ∧ m1.w = mod0.w) (js : List Nat) (hj : ∀ j ∈ js, j < numberOfParamsSubs img.par) :
    ∃ l, stepLoop model parami i (getParamsSubs img.par) (getStepSizesSubs img.par) mod0 js T img = (T, .ok l) ∧
      l.map (·.1) = js.map (parami + ·) ∧
      ∀ k p, (k, p) ∈ l ↔ ∃ j ∈ js, k = parami + j ∧ LocalEntry model T img i j .false (some p) := by
  induction js with
  | nil => exact ⟨[], rfl, rfl, by simp⟩
  | cons j js ih =>
    obtain ⟨l, h1, h2, h3⟩ := ih (fun a ha => hj a (by simp [ha]))
    have hdi := hj j (by simp)
    obtain ⟨st, hh⟩ : ∃ h, (getStepSizesSubs img.par)[j]? = some h :=
      ⟨_, List.getElem?_eq_getElem (by rw [hsteps]; exact hdi)⟩
    obtain ⟨p, hp⟩ : ∃ p, (getParamsSubs img.par)[j]? = some p :=
      ⟨_, List.getElem?_eq_getElem (by rw [getParamsSubs_length]; exact hdi)⟩
    obtain ⟨old, s1, s2, s3, s4⟩ := setParamSubs_ok img.par j (p + st) hdi
    obtain rfl : p = old := by rw [hp] at s1; injection s1
    obtain ⟨m1, g1, g2, g3⟩ := hm0 (setParamSubs img.par j (p + st)).1
    have hs : setParamSubs img.par j (p + st) = ((setParamSubs img.par j (p + st)).1, .ok p) := Prod.ext rfl s2
    refine ⟨(parami + j, ⟨0, 0, some ⟨mod0.h, mod0.w, fun r c => (m1.px r c - mod0.px r c) / st⟩⟩) :: l, ?_, ?_, ?_⟩
    · simp only [stepLoop, hh, hp]
      rw [hs]
      simp only [g1, s4, g2, g3, and_self, if_true]
      rw [withImage_same T i b img _ hi, h1]
    · rw [List.map_cons, h2, List.map_cons]
    · intro k q
      rw [List.mem_cons, h3]
      constructor
      · rintro (h | ⟨a, h4, h5⟩)
        · simp only [Prod.mk.injEq] at h
          refine ⟨j, by simp, h.1, p, st, mod0, m1, hp, hh, hm, g1, by rw [h.2]⟩
        · exact ⟨a, by simp [h4], h5⟩
      · rintro ⟨a, h4, h5, h6⟩
        rcases List.mem_cons.1 h4 with rfl | h4
        · left
          obtain ⟨p', st', m0', m1', a1, a2, a3, a4, a5⟩ := h6
          rw [hp] at a1; injection a1 with a1; subst a1
          rw [hh] at a2; injection a2 with a2; subst a2
          rw [hm] at a3; injection a3 with a3; subst a3
          rw [g1] at a4; injection a4 with a4; subst a4
          injection a5 with a5
          rw [h5, a5]
        · exact .inr ⟨a, h4, h5, h6⟩

theorem thisImage_ok [Field R] (model : Tractor R M → Image R → Except PyErr (Arr R))
    (hooks : Nat → Nat → Option (List (Deriv R))) (parami i : Nat)
    (b : Bool) (T : Tractor R M) (img : Image R) (hi : T.images[i]? = some (b, img))
    (h : ImageOK model hooks T i img) :
    ∃ l, thisImage model hooks parami i T img = (T, .ok l) ∧ (l.map (·.1)).Nodup ∧
      ∀ k p, (k, p) ∈ l ↔ ∃ j d, j < numberOfParamsSubs img.par ∧ k = parami + j ∧
        (reported (hooks i) img.par)[j]? = some d ∧ LocalEntry model T img i j d (some p) := by
  obtain ⟨g1, g2, m0, g3, g4⟩ := h
  obtain ⟨ds, d1, d2, d3⟩ := imageDerivs_ok (hooks i) img.par 0 g1
  have hrep : reported (hooks i) img.par = ds := d3.symm
  rw [hrep]
  have hlt : ∀ j d, ds[j]? = some d → j < numberOfParamsSubs img.par := by
    intro j d hj
    rw [← d2]; exact (List.getElem?_eq_some_iff.1 hj).1
  obtain ⟨l, h1, h2, h3⟩ := stepLoop_ok model parami i b T img hi g2 m0 g3 g4 (needed ds)
    (fun j hj => hlt j _ ((mem_needed ds j).1 hj))
  have key : ∀ k p, (k, p) ∈ given parami ds ++ l ↔ ∃ j d, j < numberOfParamsSubs img.par ∧ k = parami + j ∧
        ds[j]? = some d ∧ LocalEntry model T img i j d (some p) := by
    intro k p
    rw [List.mem_append, mem_given, h3]
    constructor
    · rintro (⟨j, a1, a2⟩ | ⟨j, a1, a2, a3⟩)
      · exact ⟨j, _, hlt _ _ a1, a2, a1, rfl⟩
      · have := (mem_needed ds j).1 a1
        exact ⟨j, _, hlt _ _ this, a2, this, a3⟩
    · rintro ⟨j, d, -, a2, a3, a4⟩
      cases d with
      | patch q => left; injection a4 with a4; subst a4; exact ⟨j, a3, a2⟩
      | none => exact absurd a4 (by simp [LocalEntry])
      | false => exact .inr ⟨j, (mem_needed ds j).2 a3, a2, a4⟩
  have hnd : ((given parami ds ++ l).map (·.1)).Nodup := by
    rw [List.map_append, List.nodup_append]
    refine ⟨nodup_given _ _, ?_, ?_⟩
    · rw [h2]
      exact (nodup_needed ds).map (fun a b hab => by simpa using hab)
    · intro a ha c hc hac
      subst hac
      obtain ⟨⟨k, p⟩, a1, rfl⟩ := List.mem_map.1 ha
      obtain ⟨j, a2, a3⟩ := (mem_given _ _ _ _).1 a1
      rw [h2] at hc
      obtain ⟨j', a4, a5⟩ := List.mem_map.1 hc
      simp only at a5 a3
      have : j = j' := by omega
      subst this
      rw [(mem_needed ds j).1 a4] at a2
      injection a2 with a2
      cases a2
  simp only [thisImage, d1]
  by_cases h0 : (needed ds).length = 0
  · rw [if_pos h0]
    have hl : l = [] := by
      have := congrArg List.length h2
      simp only [List.length_map, h0] at this
      exact List.length_eq_zero_iff.1 this
    rw [hl, List.append_nil] at key hnd
    exact ⟨_, rfl, hnd, key⟩
  · rw [if_neg h0]
    simp only [g3, h1]
    exact ⟨_, rfl, hnd, key⟩

/-- Number of parameters of the thawed images in a list. -/
def sizeOf' (l : List (Bool × Image R)) : Nat := (l.map (fun x => if x.1 then numberOfParamsSubs x.2.par else 0)).sum

theorem imagePart_ok [Field R] (model : Tractor R M → Image R → Except PyErr (Arr R))
    (hooks : Nat → Nat → Option (List (Deriv R))) (T : Tractor R M) (imgi : Nat)
    (hok : ∀ (i : Nat) x, T.images[i]? = some x → x.1 = true → ImageOK model hooks T i x.2) (k0 : Nat)
    (suf : List (Bool × Image R)) (hsuf : T.images.drop k0 = suf) (parami : Nat) :
    ∃ l, imagePart model hooks imgi (Engine.thawedIndices k0 (suf.map (·.1))) parami T = (T, .ok (l, parami + sizeOf' suf)) ∧
      (l.map (·.1)).Nodup ∧
      ∀ k p, (k, p) ∈ l ↔ ∃ o img j d, suf[o]? = some (true, img) ∧ k0 + o = imgi ∧ j < numberOfParamsSubs img.par ∧
        k = parami + sizeOf' (suf.take o) + j ∧
        (reported (hooks imgi) img.par)[j]? = some d ∧ LocalEntry model T img imgi j d (some p) := by
  induction suf generalizing k0 parami with
  | nil => exact ⟨[], rfl, by simp, by simp⟩
  | cons x suf ih =>
    have hk : T.images[k0]? = some x := by
      have := congrArg (fun l => l[0]?) hsuf
      simpa using this
    have hdrop : T.images.drop (k0 + 1) = suf := by
      have := congrArg (List.drop 1) hsuf
      simpa [Nat.add_comm] using this
    obtain ⟨b, img⟩ := x
    obtain ⟨l, h1, h2, h3⟩ := ih (k0 + 1) hdrop (parami + if b then numberOfParamsSubs img.par else 0)
    have hsz : sizeOf' ((b, img) :: suf) = (if b then numberOfParamsSubs img.par else 0) + sizeOf' suf := by
      simp [sizeOf']
    have hszt : ∀ o, sizeOf' (((b, img) :: suf).take (o + 1)) =
        (if b then numberOfParamsSubs img.par else 0) + sizeOf' (suf.take o) := by
      intro o; simp [sizeOf']
    have tail : ∀ k p, (k, p) ∈ l ↔ ∃ o img' j d, ((b, img) :: suf)[o + 1]? = some (true, img') ∧ k0 + (o + 1) = imgi ∧
        j < numberOfParamsSubs img'.par ∧ k = parami + sizeOf' (((b, img) :: suf).take (o + 1)) + j ∧
        (reported (hooks imgi) img'.par)[j]? = some d ∧ LocalEntry model T img' imgi j d (some p) := by
      intro k p
      rw [h3]
      constructor
      · rintro ⟨o, im, j, d, a1, a2, a3, a4, a5⟩
        exact ⟨o, im, j, d, a1, by omega, a3, by rw [hszt]; omega, a5⟩
      · rintro ⟨o, im, j, d, a1, a2, a3, a4, a5⟩
        rw [hszt] at a4
        exact ⟨o, im, j, d, a1, by omega, a3, by omega, a5⟩
    cases b with
    | false =>
      refine ⟨l, ?_, h2, ?_⟩
      · simp only [List.map_cons, Engine.thawedIndices]
        rw [hsz]
        simpa using h1
      · intro k p
        rw [tail]
        constructor
        · rintro ⟨o, r⟩; exact ⟨o + 1, r⟩
        · rintro ⟨o, im, r⟩
          cases o with
          | zero => simp at r
          | succ o => exact ⟨o, im, r⟩
    | true =>
      simp only [if_true] at h1 hsz hszt
      simp only [List.map_cons, Engine.thawedIndices, imagePart, hk]
      by_cases he : k0 = imgi
      · rw [if_pos he]
        subst he
        obtain ⟨l', g1, g2, g3⟩ := thisImage_ok model hooks parami k0 true T img hk (hok _ _ hk rfl)
        have hl : l = [] := by
          cases l with
          | nil => rfl
          | cons a l =>
            exfalso
            obtain ⟨o, _, _, _, _, h, _⟩ := (tail a.1 a.2).1 (by simp)
            omega
        subst hl
        refine ⟨l', by simp only [g1, h1, List.append_nil, hsz, Nat.add_assoc], g2, ?_⟩
        intro k p
        rw [g3]
        constructor
        · rintro ⟨j, d, a1, a2, a3⟩
          exact ⟨0, img, j, d, rfl, rfl, a1, by simpa [sizeOf'] using a2, a3⟩
        · rintro ⟨o, im, j, d, a1, a2, a3, a4, a5⟩
          have : o = 0 := by omega
          subst this
          simp only [List.getElem?_cons_zero, Option.some.injEq, Prod.mk.injEq, true_and] at a1
          subst a1
          exact ⟨j, d, a3, by simpa [sizeOf'] using a4, a5⟩
      · rw [if_neg he]
        refine ⟨l, by simp only [h1, List.nil_append, hsz, Nat.add_assoc], h2, ?_⟩
        intro k p
        rw [tail]
        constructor
        · rintro ⟨o, r⟩; exact ⟨o + 1, r⟩
        · rintro ⟨o, im, j, d, r⟩
          cases o with
          | zero => exact absurd r.2.1 he
          | succ o => exact ⟨o, im, j, d, r⟩

/-- Number of parameters of the thawed sources in a list. -/
def sizeOfCat (l : List (Bool × Option (Source R))) : Nat :=
  (l.map (fun x => match x with
    | (true, some s) => numberOfParams s.par
    | _ => 0)).sum

theorem sourcePart_ok (W : World R M) (T : Tractor R M) (img : Image R) (hmask : MasksOK T img)
    (cat : List (Bool × Option (Source R)))
    (hlen : ∀ s, (true, some s) ∈ cat → ∀ ds, Reports W T s img ds → ds.length ≤ numberOfParams s.par) (parami : Nat) :
    ∃ l, sourcePart W T img (cat.filterMap (fun x => if x.1 then x.2 else none)) parami = .ok (l, parami + sizeOfCat cat) ∧
      (l.map (·.1)).Nodup ∧ (∀ k p, (k, p) ∈ l → parami ≤ k) ∧
      ∀ k p, (k, p) ∈ l ↔ ∃ o s ds j, cat[o]? = some (true, some s) ∧ Reports W T s img ds ∧ ds[j]? = some (some p) ∧
        k = parami + sizeOfCat (cat.take o) + j := by
  induction cat generalizing parami with
  | nil => exact ⟨[], rfl, by simp, by simp, by simp⟩
  | cons x cat ih =>
    have hsk : ∀ x : Bool × Option (Source R), (∀ s, x ≠ (true, some s)) →
        (if x.1 then x.2 else none) = none ∧ sizeOfCat [x] = 0 := by
      rintro ⟨b, s⟩ h
      cases b <;> cases s <;> simp_all [sizeOfCat]
    have hcons : ∀ (x : Bool × Option (Source R)) (c : List (Bool × Option (Source R))),
        sizeOfCat (x :: c) = sizeOfCat [x] + sizeOfCat c := by
      intro x c; simp [sizeOfCat]
    by_cases hx : ∃ s, x = (true, some s)
    · obtain ⟨s, rfl⟩ := hx
      obtain ⟨ds, d1, d2⟩ := sourceDerivs_ok W T s img hmask
      have hds := hlen s (by simp) ds d2
      have hsz : sizeOfCat [(true, some s)] = numberOfParams s.par := by simp [sizeOfCat]
      obtain ⟨l, h1, h2, h3, h4⟩ := ih (fun s' hs => hlen s' (by simp [hs])) (parami + numberOfParams s.par)
      have hmem : ∀ k p, (k, p) ∈ ds.zipIdx.filterMap (fun t => t.1.map (fun p => (parami + t.2, p))) ↔
          ∃ j, ds[j]? = some (some p) ∧ k = parami + j := by
        intro k p
        rw [List.mem_filterMap]
        constructor
        · rintro ⟨⟨d, j⟩, a1, a2⟩
          have a1 := List.mem_zipIdx_iff_getElem?.1 a1
          cases d with
          | none => simp at a2
          | some q =>
            simp only [Option.map_some, Option.some.injEq, Prod.mk.injEq] at a2
            exact ⟨j, by rw [← a2.2]; exact a1, a2.1.symm⟩
        · rintro ⟨j, a1, rfl⟩
          exact ⟨(some p, j), List.mem_zipIdx_iff_getElem?.2 a1, rfl⟩
      refine ⟨ds.zipIdx.filterMap (fun t => t.1.map (fun p => (parami + t.2, p))) ++ l, ?_, ?_, ?_, ?_⟩
      · simp only [List.filterMap_cons, if_true, sourcePart, d1, h1]
        rw [hcons, hsz, Nat.add_assoc]
      · rw [List.map_append, List.nodup_append]
        refine ⟨?_, h2, ?_⟩
        · refine nodup_filterMap_zipIdx _ _ (fun t g h => ⟨parami, ?_, fun t' g' h' => ?_⟩) ds 0
          · rcases t with ⟨d, j⟩
            cases d <;> simp at h
            rw [← h]
          · rcases t' with ⟨d, j⟩
            cases d <;> simp at h'
            rw [← h']
        · intro a ha c hc hac
          subst hac
          obtain ⟨⟨k, p⟩, a1, rfl⟩ := List.mem_map.1 ha
          obtain ⟨⟨k', p'⟩, b1, b2⟩ := List.mem_map.1 hc
          simp only at b2
          subst b2
          obtain ⟨j, a2, a3⟩ := (hmem _ _).1 a1
          have := h3 _ _ b1
          have := (List.getElem?_eq_some_iff.1 a2).1
          omega
      · intro k p h
        rcases List.mem_append.1 h with h | h
        · obtain ⟨j, -, rfl⟩ := (hmem _ _).1 h; omega
        · have := h3 _ _ h; omega
      · intro k p
        rw [List.mem_append, hmem, h4]
        constructor
        · rintro (⟨j, a1, a2⟩ | ⟨o, s', ds', j, a1, a2, a3, a4⟩)
          · exact ⟨0, s, ds, j, rfl, d2, a1, by simpa [sizeOfCat] using a2⟩
          · refine ⟨o + 1, s', ds', j, by simpa using a1, a2, a3, ?_⟩
            rw [List.take_succ_cons, hcons, hsz]; omega
        · rintro ⟨o, s', ds', j, a1, a2, a3, a4⟩
          cases o with
          | zero =>
            left
            simp only [List.getElem?_cons_zero, Option.some.injEq, Prod.mk.injEq, true_and] at a1
            subst a1
            obtain ⟨m, b1, b2⟩ := a2
            obtain ⟨m', c1, c2⟩ := d2
            have := b1.unique c1
            subst this
            rw [b2, ← c2] at a3
            exact ⟨j, a3, by simpa [sizeOfCat] using a4⟩
          | succ o =>
            right
            rw [List.take_succ_cons, hcons, hsz] at a4
            exact ⟨o, s', ds', j, by simpa using a1, a2, a3, by omega⟩
    · have hx' : ∀ s, x ≠ (true, some s) := fun s h => hx ⟨s, h⟩
      obtain ⟨e1, e2⟩ := hsk x hx'
      obtain ⟨l, h1, h2, h3, h4⟩ := ih (fun s' hs => hlen s' (by simp [hs])) parami
      refine ⟨l, ?_, h2, h3, ?_⟩
      · rw [List.filterMap_cons, e1, hcons, e2, Nat.zero_add]
        exact h1
      · intro k p
        rw [h4]
        constructor
        · rintro ⟨o, s', ds', j, a1, a2, a3, a4⟩
          refine ⟨o + 1, s', ds', j, by simpa using a1, a2, a3, ?_⟩
          rw [List.take_succ_cons, hcons, e2]; omega
        · rintro ⟨o, s', ds', j, a1, a2, a3, a4⟩
          cases o with
          | zero => simp only [List.getElem?_cons_zero, Option.some.injEq] at a1; exact absurd a1 (hx' s')
          | succ o =>
            rw [List.take_succ_cons, hcons, e2] at a4
            exact ⟨o, s', ds', j, by simpa using a1, a2, a3, by omega⟩

theorem clipTo_range (p : Patch R) (W H : Nat) (A : Arr R) (h : (p.clipTo W H).1.patch = some A) :
    0 ≤ (p.clipTo W H).1.x0 ∧ (p.clipTo W H).1.x0 + A.w ≤ W ∧ 0 ≤ (p.clipTo W H).1.y0 ∧
      (p.clipTo W H).1.y0 + A.h ≤ H := by
  cases hA : p.patch with
  | none => simp [Patch.clipTo, hA] at h
  | some B =>
    by_cases h1 : p.x0 ≥ W
    · simp [Patch.clipTo, hA, h1] at h
    · by_cases h2 : p.y0 ≥ H
      · simp [Patch.clipTo, hA, h1, h2] at h
      · have key : (p.clipTo W H).1 = ⟨max p.x0 0, max p.y0 0, some
            ⟨min (H - max p.y0 0).toNat (B.h - (-p.y0).toNat),
            min (W - max p.x0 0).toNat (B.w - (-p.x0).toNat),
            fun r c => B.px (min (-p.y0).toNat B.h + r) (min (-p.x0).toNat B.w + c)⟩⟩ := by
          simp only [Patch.clipTo, hA]
          rw [if_neg h1, if_neg h2]
          have e1 := left_uniform B p.x0 0
          simp only [Int.zero_sub] at e1
          rw [e1]
          simp only []
          have e2 := fun B : Arr R => top_uniform B p.y0 0
          simp only [Int.zero_sub] at e2
          rw [e2]
          simp only []
          rw [right_uniform _ (max p.x0 0) W (by omega) _ ?hw]
          case hw => rfl
          simp only []
          rw [bottom_uniform _ (max p.y0 0) H (by omega) _ ?hh]
          case hh => rfl
          simp only []
          rw [if_pos (by omega)]
        rw [key] at h ⊢
        simp only [Option.some.injEq] at h
        subst h
        simp only
        omega

end Verif.Ceres
