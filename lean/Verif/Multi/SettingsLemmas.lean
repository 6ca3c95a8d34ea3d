import Verif.Multi.Settings
import Verif.Engine.Lemmas3

namespace Verif.Multi

open Verif Verif.Params Verif.Patches Verif.Engine

variable {R M D O : Type}

theorem lookup_append {β : Type} (d e : List (String × β)) (k : String) : (e ++ d).lookup k = (e.lookup k).or (d.lookup k) := by
  induction e with
  | nil => simp
  | cons p e ih =>
    obtain ⟨a, b⟩ := p
    by_cases h : k == a
    · simp [List.lookup_cons, h]
    · simp [List.lookup_cons, h, ih]

theorem lookup_filter {β : Type} (q : String → Bool) (d : List (String × β)) (k : String) (h : q k = true) :
    (d.filter (fun p => q p.1)).lookup k = d.lookup k := by
  induction d with
  | nil => rfl
  | cons p d ih =>
    obtain ⟨a, b⟩ := p
    by_cases hk : k = a
    · subst hk
      simp [h]
    · have hk' : (k == a) = false := by simpa using hk
      by_cases hq : q a = true
      · simp [hq, List.lookup_cons, hk', ih]
      · simp [hq, List.lookup_cons, hk', ih]

theorem lookup_update (d e : Kw R) (k : String) : (update d e).lookup k = (e.lookup k).or (d.lookup k) := by
  unfold update
  rw [lookup_append]
  cases h : e.lookup k with
  | some v => rfl
  | none => rw [Option.none_or, Option.none_or]; exact lookup_filter (fun a => (e.lookup a).isNone) d k (by simp [h])

/-- Rendering with fixed keyword arguments. -/
def KwWorld.inst (W : KwWorld R M) (s : String → Option (Setting R)) : World R M := ⟨W.render s, W.sky, W.srcDerivs s⟩

theorem kwPatch_eq (W : KwWorld R M) (o : Obj R M D O) (d : Kw R) (ho : o.settings = some d) (img : Image R) (kw : Kw R)
    (src : Source R) :
    kwPatch W o img kw src = getModelPatch (W.inst (fun k => (update d kw).lookup k)) o.core img src := by
  unfold kwPatch getModelPatch
  cases maskFor o.core img src with
  | error e => rfl
  | ok m => simp only [ho]; rfl

theorem kwSources_eq [Zero R] [One R] [Add R] [Mul R] (W : KwWorld R M) (o : Obj R M D O) (d : Kw R)
    (ho : o.settings = some d) (img : Image R) (kw : Kw R) (srcs : List (Option (Source R))) (mod : Arr R) :
    kwSources W o img kw srcs mod = addSources (W.inst (fun k => (update d kw).lookup k)) o.core img srcs mod := by
  induction srcs generalizing mod with
  | nil => rfl
  | cons s srcs ih =>
    cases s with
    | none => exact ih mod
    | some s =>
      simp only [kwSources, addSources, kwPatch_eq W o d ho]
      cases getModelPatch (W.inst (fun k => (update d kw).lookup k)) o.core img s with
      | error e => rfl
      | ok p =>
        cases p with
        | none => exact ih mod
        | some p =>
          simp only
          cases p.addTo mod 1 with
          | error e => rfl
          | ok mod' => exact ih mod'

theorem kwModelImage_eq [Zero R] [One R] [Add R] [Mul R] [DecidableEq R] (W : KwWorld R M) (o : Obj R M D O) (d : Kw R)
    (ho : o.settings = some d) (img : Image R) (srcs : Option (List (Option (Source R)))) (sky : Bool) (minsb : Setting R)
    (kw : Kw R) :
    kwModelImage W o img srcs sky minsb kw =
      getModelImage (W.inst (fun k => (update d (("minsb", minsb) :: kw)).lookup k)) o.core img srcs sky := by
  unfold kwModelImage getModelImage
  rw [kwSources_eq W o d ho]
  rfl

/-! ## Copies -/

theorem imagesSubs_ren (f : Nat → Nat) (l : List (Bool × Image R)) : imagesSubs (renImages f l) = imagesSubs l := by
  induction l with
  | nil => rfl
  | cons x l ih =>
    obtain ⟨b, im⟩ := x
    show imagesSubs ((b, renImage f im) :: renImages f l) = _
    simp only [imagesSubs, ih]
    rfl

theorem catalogSubs_ren (f : Nat → Nat) (l : List (Bool × Option (Source R))) :
    catalogSubs (renCatalog f l) = catalogSubs l := by
  induction l with
  | nil => rfl
  | cons x l ih =>
    obtain ⟨b, s⟩ := x
    cases s with
    | none =>
      show catalogSubs ((b, none) :: renCatalog f l) = _
      simp only [catalogSubs, ih]
    | some s =>
      show catalogSubs ((b, some (renSource f s)) :: renCatalog f l) = _
      simp only [catalogSubs, ih]
      rfl

/-- The copied tractor. -/
def renTractor (f : Nat → Nat) (T : Tractor R M) : Tractor R M :=
  ⟨T.imagesThawed, renImages f T.images, T.catalogThawed, renCatalog f T.catalog, T.modelMasks.map (renMasks f),
    T.expectModelMasks⟩

theorem par_ren (f : Nat → Nat) (T : Tractor R M) : (renTractor f T).par = T.par := by
  simp only [Tractor.par, renTractor, imagesSubs_ren, catalogSubs_ren]

theorem reload_eq (f : Nat → Nat) (lsqr : O) (o : Obj R M D O) :
    reload f lsqr o = .ok ⟨renTractor f o.core, o.modtype, o.optimizer, none⟩ := rfl

theorem maskFor_ren (f : Nat → Nat) (hf : Function.Injective f) (T : Tractor R M) (img : Image R) (src : Source R) :
    maskFor (renTractor f T) (renImage f img) (renSource f src) = maskFor T img src := by
  unfold maskFor
  show (match T.modelMasks.map (renMasks f) with | none => _ | some masks => _) = _
  cases T.modelMasks with
  | none => rfl
  | some masks =>
    simp only [Option.map_some, renTractor, renImages, List.findIdx?_map]
    have h1 : (fun x : Bool × Image R => decide (x.2.id = (renImage f img).id)) ∘
        (fun x : Bool × Image R => (x.1, renImage f x.2)) = fun x => decide (x.2.id = img.id) := by
      funext x
      simp [renImage, hf.eq_iff]
    rw [h1]
    cases T.images.findIdx? (fun x => decide (x.2.id = img.id)) with
    | none => rfl
    | some i =>
      simp only [renMasks, List.getElem?_map]
      cases masks[i]? with
      | none => rfl
      | some d =>
        simp only [Option.map_some, List.find?_map]
        have h2 : (fun e : Nat × M => decide (e.1 = (renSource f src).id)) ∘ (fun e : Nat × M => (f e.1, e.2)) =
            fun e => decide (e.1 = src.id) := by
          funext e
          simp [renSource, hf.eq_iff]
        rw [h2]
        cases d.find? (fun e => decide (e.1 = src.id)) with
        | none => rfl
        | some e => rfl

/-- External code does not depend on identities. -/
def Anonymous (f : Nat → Nat) (W : KwWorld R M) : Prop :=
  (∀ s src img m, W.render s (renSource f src) (renImage f img) m = W.render s src img m) ∧
    ∀ img, W.sky (renImage f img) = W.sky img

theorem kwSources_ren [Zero R] [One R] [Add R] [Mul R] (f : Nat → Nat) (hf : Function.Injective f) (W : KwWorld R M)
    (hW : Anonymous f W) (o : Obj R M D O) (img : Image R) (kw : Kw R) (srcs : List (Option (Source R))) (mod : Arr R) :
    kwSources W { o with core := renTractor f o.core } (renImage f img) kw (srcs.map (·.map (renSource f))) mod =
      kwSources W o img kw srcs mod := by
  have hp : ∀ s, kwPatch W { o with core := renTractor f o.core } (renImage f img) kw (renSource f s) =
      kwPatch W o img kw s := by
    intro s
    simp only [kwPatch, maskFor_ren f hf, hW.1]
    rfl
  induction srcs generalizing mod with
  | nil => rfl
  | cons s srcs ih =>
    cases s with
    | none => exact ih mod
    | some s =>
      simp only [List.map_cons, Option.map_some, kwSources, hp]
      cases kwPatch W o img kw s with
      | error e => rfl
      | ok p =>
        cases p with
        | none => exact ih mod
        | some p =>
          simp only
          cases p.addTo mod 1 with
          | error e => rfl
          | ok mod' => exact ih mod'

theorem catalog_ren (f : Nat → Nat) (l : List (Bool × Option (Source R))) :
    (renCatalog f l).map (·.2) = (l.map (·.2)).map (·.map (renSource f)) := by
  simp [renCatalog]

theorem kwModelImage_ren [Zero R] [One R] [Add R] [Mul R] [DecidableEq R] (f : Nat → Nat) (hf : Function.Injective f)
    (W : KwWorld R M) (hW : Anonymous f W) (o : Obj R M D O) (img : Image R) (srcs : Option (List (Option (Source R))))
    (sky : Bool) (minsb : Setting R) (kw : Kw R) :
    kwModelImage W { o with core := renTractor f o.core } (renImage f img) (srcs.map (·.map (·.map (renSource f)))) sky
        minsb kw = kwModelImage W o img srcs sky minsb kw := by
  unfold kwModelImage
  rw [hW.2]
  have : (srcs.map (·.map (·.map (renSource f)))).getD ((renTractor f o.core).catalog.map (·.2)) =
      (srcs.getD (o.core.catalog.map (·.2))).map (·.map (renSource f)) := by
    cases srcs with
    | none => exact catalog_ren f o.core.catalog
    | some l => rfl
  simp only [this]
  exact kwSources_ren f hf W hW o img _ _ _

/-- Without the attribute `model_kwargs`, the first source not masked out raises. -/
theorem kwSources_unset [Zero R] [One R] [Add R] [Mul R] (W : KwWorld R M) (o : Obj R M D O) (ho : o.settings = none)
    (img : Image R) (h : MasksOK o.core img) (kw : Kw R) (srcs : List (Option (Source R)))
    (hs : ∃ s, some s ∈ srcs ∧ (o.core.expectModelMasks = true → ∃ m, maskFor o.core img s = .ok (some m))) (mod : Arr R) :
    kwSources W o img kw srcs mod = .error .attribute := by
  induction srcs generalizing mod with
  | nil => obtain ⟨s, h, -⟩ := hs; simp at h
  | cons s srcs ih =>
    cases s with
    | none =>
      obtain ⟨s, h1, h2⟩ := hs
      exact ih ⟨s, by simpa using h1, h2⟩ mod
    | some s =>
      obtain ⟨m, hm, -⟩ := maskFor_ok o.core img h s
      simp only [kwSources, kwPatch, hm, ho]
      by_cases hx : (o.core.expectModelMasks && m.isNone) = true
      · simp only [hx, if_true]
        obtain ⟨s', h1, h2⟩ := hs
        rcases List.mem_cons.mp h1 with h1 | h1
        · injection h1 with h1
          subst h1
          rw [Bool.and_eq_true] at hx
          obtain ⟨m', hm'⟩ := h2 hx.1
          rw [hm] at hm'
          injection hm' with hm'
          rw [hm'] at hx
          simp at hx
        · exact ih ⟨s', h1, h2⟩ mod
      · simp only [hx, Bool.false_eq_true, if_false]

end Verif.Multi
