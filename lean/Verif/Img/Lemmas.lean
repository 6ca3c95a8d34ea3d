import Verif.Img.Spec
import Std.Data.String.ToNat

/-!
# Lemmas about headers
-/

namespace Verif.Img

open Verif.Mog (MogParams NCirc)

variable {R I : Type}

theorem record_add (h : Header R) (k k' : String) (v : Val R) :
    record (addRecord h k v) k' = if k = k' then some v else record h k' := by
  unfold record addRecord
  by_cases e : k = k'
  · rw [List.find?_cons_of_pos (by simpa using e), if_pos e]; rfl
  · rw [List.find?_cons_of_neg (by simpa using e), if_neg e]

/-- The tags. -/
def IsTag (t : String) : Prop := t ∈ ["PSF", "WCS", "SKY", "PHO"]

theorem tag_length {t : String} (h : IsTag t) : t.toList.length = 3 := by
  unfold IsTag at h
  simp only [List.mem_cons, List.not_mem_nil, or_false] at h
  rcases h with rfl | rfl | rfl | rfl <;> rfl

theorem paramKey_inj {pre t t' : String} (h : IsTag t) (h' : IsTag t') {i j : Nat} (e : paramKey pre t i = paramKey pre t' j) :
    t = t' ∧ i = j := by
  unfold paramKey at e
  have e1 := (String.append_right_inj pre).mp e
  have e2 := congrArg String.toList e1
  rw [String.toList_append, String.toList_append (s := t')] at e2
  obtain ⟨a, b⟩ := List.append_inj e2 (by rw [tag_length h, tag_length h'])
  have b' := (String.append_right_inj "_P").mp (String.toList_inj.mp b)
  exact ⟨String.toList_inj.mp a, Nat.repr_injective b'⟩

theorem class_ne_param {pre t t' : String} (h : IsTag t) (h' : IsTag t') (i : Nat) : classKey pre t ≠ paramKey pre t' i := by
  intro e
  unfold paramKey classKey at e
  have e1 := (String.append_right_inj pre).mp e
  have e2 := congrArg (fun s => s.toList.length) e1
  simp only [String.toList_append, List.length_append, tag_length h, tag_length h'] at e2
  have : ("_P" : String).toList.length = 2 := rfl
  omega

theorem class_inj {pre t t' : String} (e : classKey pre t = classKey pre t') : t = t' := (String.append_right_inj pre).mp e

/-- Records of other names stay. -/
theorem record_write_other {pre tag : String} {k : String} : ∀ (l : List R) (i : Nat) (h : Header R),
    (∀ j, paramKey pre tag j ≠ k) → record (writeFrom pre tag i l h) k = record h k
  | [], _, _, _ => rfl
  | v :: l, i, h, hk => by
    show record (writeFrom pre tag (i + 1) l (addRecord h (paramKey pre tag i) (.num v))) k = _
    rw [record_write_other l (i + 1) _ hk, record_add, if_neg (hk i)]

/-- Records before the first written stay. -/
theorem record_write_before {pre tag : String} (ht : IsTag tag) {n : Nat} : ∀ (l : List R) (i : Nat) (h : Header R),
    n < i → record (writeFrom pre tag i l h) (paramKey pre tag n) = record h (paramKey pre tag n)
  | [], _, _, _ => rfl
  | v :: l, i, h, hn => by
    show record (writeFrom pre tag (i + 1) l (addRecord h (paramKey pre tag i) (.num v))) _ = _
    rw [record_write_before ht l (i + 1) _ (by omega), record_add, if_neg (fun e => by have := (paramKey_inj ht ht e).2; omega)]

/-- The records written. -/
theorem record_write {pre tag : String} (ht : IsTag tag) : ∀ (l : List R) (i : Nat) (h : Header R) (n : Nat),
    record (writeFrom pre tag i l h) (paramKey pre tag (i + n)) =
      match l[n]? with
      | some v => some (.num v)
      | none => record h (paramKey pre tag (i + n))
  | [], _, _, _ => rfl
  | v :: l, i, h, 0 => by
    show record (writeFrom pre tag (i + 1) l (addRecord h (paramKey pre tag i) (.num v))) (paramKey pre tag i) = some (.num v)
    rw [record_write_before ht l (i + 1) _ (by omega), record_add, if_pos rfl]
  | v :: l, i, h, n + 1 => by
    show record (writeFrom pre tag (i + 1) l (addRecord h (paramKey pre tag i) (.num v))) (paramKey pre tag (i + (n + 1))) = _
    rw [show i + (n + 1) = i + 1 + n by omega, record_write ht l (i + 1) _ n]
    simp only [List.getElem?_cons_succ]
    cases l[n]? with
    | some w => rfl
    | none =>
      simp only
      rw [record_add, if_neg (fun e => by have := (paramKey_inj ht ht e).2; omega)]

/-- What is read. -/
theorem readFrom_eq {pre tag : String} {h : Header R} : ∀ (fuel : Nat) (l : List R) (i : Nat),
    (∀ n, record h (paramKey pre tag (i + n)) = (l[n]?).map Val.num) → readFrom pre tag h fuel i = l.take fuel
  | 0, _, _, _ => rfl
  | fuel + 1, [], i, hr => by
    have h0 := hr 0
    simp only [Nat.add_zero, List.getElem?_nil, Option.map_none] at h0
    unfold readFrom
    rw [h0]
    rfl
  | fuel + 1, v :: l, i, hr => by
    have h0 := hr 0
    simp only [Nat.add_zero, List.getElem?_cons_zero, Option.map_some] at h0
    unfold readFrom
    rw [h0]
    show v :: readFrom pre tag h fuel (i + 1) = v :: l.take fuel
    rw [readFrom_eq fuel l (i + 1) (fun n => by
      have := hr (n + 1)
      rw [show i + 1 + n = i + (n + 1) by omega, this, List.getElem?_cons_succ])]

/-- The header of an image. -/
theorem header_facts {im : Image R I} {h H : Header R} {pre : String} (hc : Clean h pre) {psf : Psf R I} (hp : im.psf = some psf)
    (hH : fitsHeader im h pre = .ok H) :
    record H (classKey pre "PSF") = some (.str psf.name) ∧ record H (classKey pre "WCS") = some (.str im.wcs.name) ∧
    record H (classKey pre "SKY") = some (.str im.sky.name) ∧ record H (classKey pre "PHO") = some (.str im.phot.name) ∧
    readFrom pre "PSF" H 100 0 = psf.written.take 100 ∧ readFrom pre "WCS" H 100 0 = im.wcs.written.take 100 ∧
    readFrom pre "SKY" H 100 0 = im.sky.written.take 100 ∧ readFrom pre "PHO" H 100 0 = im.phot.written.take 100 := by
  have tp : IsTag "PSF" := by simp [IsTag]
  have tw : IsTag "WCS" := by simp [IsTag]
  have ts : IsTag "SKY" := by simp [IsTag]
  have tf : IsTag "PHO" := by simp [IsTag]
  unfold fitsHeader at hH
  rw [hp] at hH
  simp only [Except.ok.injEq] at hH
  have other : ∀ {t t' : String}, IsTag t → IsTag t' → t ≠ t' → ∀ n, ∀ j, paramKey pre t j ≠ paramKey pre t' n :=
    fun h1 h2 hne n j e => hne (paramKey_inj h1 h2 e).1
  have cls : ∀ {t t' : String}, IsTag t → IsTag t' → ∀ j, paramKey pre t' j ≠ classKey pre t :=
    fun h1 h2 j e => class_ne_param h1 h2 j e.symm
  have cn : ∀ {t t' : String}, t ≠ t' → classKey pre t ≠ classKey pre t' := fun hne e => hne (class_inj e)
  have base : ∀ {t : String}, IsTag t → ∀ n, record (addRecord (addRecord (addRecord (addRecord h (classKey pre "PSF") (.str psf.name))
      (classKey pre "WCS") (.str im.wcs.name)) (classKey pre "SKY") (.str im.sky.name)) (classKey pre "PHO") (.str im.phot.name))
      (paramKey pre t n) = none := by
    intro t ht n
    rw [record_add, if_neg (class_ne_param tf ht n), record_add, if_neg (class_ne_param ts ht n), record_add,
      if_neg (class_ne_param tw ht n), record_add, if_neg (class_ne_param tp ht n)]
    exact hc t ht n
  subst hH
  refine ⟨?_, ?_, ?_, ?_, ?_, ?_, ?_, ?_⟩
  · rw [record_write_other _ _ _ (cls tp tf), record_write_other _ _ _ (cls tp ts), record_write_other _ _ _ (cls tp tw),
      record_write_other _ _ _ (cls tp tp), record_add, if_neg (cn (by decide)), record_add, if_neg (cn (by decide)),
      record_add, if_neg (cn (by decide)), record_add, if_pos rfl]
  · rw [record_write_other _ _ _ (cls tw tf), record_write_other _ _ _ (cls tw ts), record_write_other _ _ _ (cls tw tw),
      record_write_other _ _ _ (cls tw tp), record_add, if_neg (cn (by decide)), record_add, if_neg (cn (by decide)),
      record_add, if_pos rfl]
  · rw [record_write_other _ _ _ (cls ts tf), record_write_other _ _ _ (cls ts ts), record_write_other _ _ _ (cls ts tw),
      record_write_other _ _ _ (cls ts tp), record_add, if_neg (cn (by decide)), record_add, if_pos rfl]
  · rw [record_write_other _ _ _ (cls tf tf), record_write_other _ _ _ (cls tf ts), record_write_other _ _ _ (cls tf tw),
      record_write_other _ _ _ (cls tf tp), record_add, if_pos rfl]
  · refine readFrom_eq 100 _ 0 (fun n => ?_)
    rw [record_write_other _ _ _ (other tf tp (by decide) _), record_write_other _ _ _ (other ts tp (by decide) _),
      record_write_other _ _ _ (other tw tp (by decide) _), record_write tp, base tp]
    cases psf.written[n]? <;> rfl
  · refine readFrom_eq 100 _ 0 (fun n => ?_)
    rw [record_write_other _ _ _ (other tf tw (by decide) _), record_write_other _ _ _ (other ts tw (by decide) _),
      record_write tw, record_write_other _ _ _ (other tp tw (by decide) _), base tw]
    cases im.wcs.written[n]? <;> rfl
  · refine readFrom_eq 100 _ 0 (fun n => ?_)
    rw [record_write_other _ _ _ (other tf ts (by decide) _), record_write ts, record_write_other _ _ _ (other tw ts (by decide) _),
      record_write_other _ _ _ (other tp ts (by decide) _), base ts]
    cases im.sky.written[n]? <;> rfl
  · refine readFrom_eq 100 _ 0 (fun n => ?_)
    rw [record_write tf, record_write_other _ _ _ (other ts tf (by decide) _), record_write_other _ _ _ (other tw tf (by decide) _),
      record_write_other _ _ _ (other tp tf (by decide) _), base tf]
    cases im.phot.written[n]? <;> rfl

/-! ### Reading mixtures -/

theorem setLiquid_all : ∀ (p : List R) (m : Mog.Mix R) (j : Nat),
    Mog.setLiquid m j (List.replicate p.length true) p = Mog.setAll m j p
  | [], _, _ => rfl
  | v :: p, m, j => by
    show (match Mog.setThing m j v with
      | (m', .error e) => (m', some e)
      | (m', .ok _) => Mog.setLiquid m' (j + 1) (List.replicate p.length true) p) = _
    unfold Mog.setAll
    cases hs : Mog.setThing m j v with
    | mk m' r =>
      cases r with
      | error e => rfl
      | ok _ => exact setLiquid_all p m' (j + 1)

/-- A mixture made of zeros and then given the parameters of another is that one. -/
theorem fresh_set [Field R] (m : MogParams R) (hm : m.OK) (ht : m.liquid = List.replicate (6 * m.mog.length) true) :
    (Mog.fresh (List.replicate m.mog.length ⟨0, 0, 0, 0, 0, 0, 0⟩) : MogParams R).setParams m.getAllParams = (m, none) := by
  set z : MogParams R := Mog.fresh (List.replicate m.mog.length ⟨0, 0, 0, 0, 0, 0, 0⟩) with hz
  have hlen : m.getAllParams.length = 6 * m.mog.length := Mog.getThings_length m.mog
  have hzl : z.mog.length = m.mog.length := by simp [hz, Mog.fresh]
  have hzq : z.liquid = List.replicate m.getAllParams.length true := by
    rw [hlen, hz]
    simp only [Mog.fresh, List.length_replicate]
    congr 1
    omega
  have hzo : z.OK := by
    refine ⟨?_, ?_⟩
    · rw [hzq, List.length_replicate, hlen, hzl]
    · intro c hc
      rw [hz] at hc
      simp only [Mog.fresh, List.mem_replicate] at hc
      rw [hc.2]
  have e : z.setParams m.getAllParams = z.setAllParams m.getAllParams := by
    unfold MogParams.setParams MogParams.setAllParams
    rw [hzq, setLiquid_all]
  rw [e]
  obtain ⟨r1, r2, -⟩ := Mog.C45_roundtrip z hzo m.getAllParams (by rw [hlen, hzl])
  have ok := (Mog.C45_refines z hzo 0 0 m.getAllParams).2.2.2.2.1
  have hl : (z.setAllParams m.getAllParams).1.mog.length = m.mog.length := by
    have := congrArg List.length r2
    rw [hlen] at this
    have h2 := Mog.getThings_length (z.setAllParams m.getAllParams).1.mog
    have h3 : (z.setAllParams m.getAllParams).1.getAllParams.length = 6 * (z.setAllParams m.getAllParams).1.mog.length := h2
    omega
  have hmog := Mog.eq_of_getThings hl ok.2 hm.2 r2
  have hliq : (z.setAllParams m.getAllParams).1.liquid = m.liquid := by
    show z.liquid = m.liquid
    rw [hzq, ht, hlen]
  refine Prod.ext ?_ r1
  cases hx : (z.setAllParams m.getAllParams).1 with
  | mk a b =>
    rw [hx] at hmog hliq
    simp only at hmog hliq
    rw [hmog, hliq]

end Verif.Img
