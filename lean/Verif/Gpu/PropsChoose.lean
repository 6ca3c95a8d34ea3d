import Verif.Gpu.Choose
import Verif.Cons.Props

/-!
# C175: which optimizer does the work
-/

namespace Verif.GpuPick

variable {T R N D : Type} [Zero R] [LinearOrder R] [Zero N]

/-- The tractors that the GPU code is for: images frozen, and a catalog of one galaxy (of a single profile) or point source, or of two entries, a galaxy,
point source or None followed by a constant surface brightness. -/
def Single (frozen : T → Bool) (kinds : T → List Kind) (t : T) : Prop :=
  frozen t = true ∧
    (kinds t = [.profileGalaxy] ∨ kinds t = [.pointSource] ∨ ∃ a, (a = .profileGalaxy ∨ a = .pointSource ∨ a = .missing) ∧ kinds t = [a, .constantSB])

theorem oneSource_iff (frozen : T → Bool) (kinds : T → List Kind) (t : T) : oneSource frozen kinds t = true ↔ Single frozen kinds t := by
  unfold oneSource Single
  rcases kinds t with _ | ⟨a, _ | ⟨b, _ | ⟨c, l⟩⟩⟩
  · simp
  · cases a <;> simp
  · cases a <;> cases b <;> simp
  · simp

/-- **`GpuFriendlyOptimizer` is `SmarterDenseOptimizer`**: `optimize`, with any options, ends with the same tractor and optimizer, and the same result or exception, and so
does `optimize_loop`. -/
theorem C175_friendly (frozen : T → Bool) (kinds : T → List Kind) (C : Cpu T R N D) (k : Kwargs R) (justVar : Bool) (alphas : Option (List R)) (t : T) :
    optimize (friendly frozen kinds C) k justVar alphas t = optimize (smarter C) k justVar alphas t ∧
      ∀ (before : T → T) (stop : N → Option (List R) → R → Act T Bool) (n : Nat),
        rounds (friendly frozen kinds C) k alphas before stop n 0 none t = rounds (smarter C) k alphas before stop n 0 none t := by
  have h1 : ∀ k t, (friendly frozen kinds C).update k false t = (smarter C).update k false t := by
    intro k t
    unfold friendly choose
    dsimp only
    by_cases h : oneSource frozen kinds t = true <;> simp [h]
  have h2 : ∀ x a t, (friendly frozen kinds C).tryUpdates x a t = (smarter C).tryUpdates x a t := by
    intro x a t
    unfold friendly choose
    dsimp only
    by_cases h : oneSource frozen kinds t = true <;> simp [h]
  have h3 : ∀ a x v t, finish (friendly frozen kinds C) a x v t = finish (smarter C) a x v t := by
    intro a x v t
    unfold finish
    rw [h2]
  have h4 : ∀ k j a t, optimize (friendly frozen kinds C) k j a t = optimize (smarter C) k j a t := by
    intro k j a t
    unfold optimize
    rw [h1]
    simp only [h3]
  refine ⟨h4 _ _ _ _, fun before stop n => ?_⟩
  suffices h : ∀ (n step : Nat) (last : Option Nat) (t : T),
      rounds (friendly frozen kinds C) k alphas before stop n step last t = rounds (smarter C) k alphas before stop n step last t from h n 0 none t
  intro n
  induction n with
  | zero => intro step last t; cases last <;> rfl
  | succ n ih =>
    intro step last t
    unfold rounds
    rw [h4]
    simp only [ih]

/-- **`get_icov`**: asked for an inverse covariance, `getLinearUpdateDirection` raises AssertionError and changes nothing for the tractors that the GPU code is
for, and forgets the request for all others: the answer is that of `SmarterDenseOptimizer` without it. -/
theorem C175_icov (frozen : T → Bool) (kinds : T → List Kind) (C : Cpu T R N D) (G : Dev T R N) (k : Kwargs R) (t : T) :
    (Single frozen kinds t → (friendly frozen kinds C).update k true t = (t, .error .assertion) ∧ (gpu frozen kinds C G).update k true t = (t, .error .assertion)) ∧
    (¬ Single frozen kinds t → (friendly frozen kinds C).update k true t = (smarter C).update k false t ∧
      (gpu frozen kinds C G).update k true t = (smarter C).update k false t) := by
  rw [← oneSource_iff]
  constructor
  · intro h
    constructor
    · unfold friendly choose
      simp [h]
    · unfold gpu choose
      simp [h]
  · intro h
    constructor
    · unfold friendly choose
      simp only [h, Bool.not_false, if_true]
      rfl
    · unfold gpu choose
      simp only [h, Bool.not_false, if_true]
      rfl

/-- The kinds of the sources, and whether the images are frozen, stay as they are while the derivatives are found and the problem is solved. -/
def Keeps (frozen : T → Bool) (kinds : T → List Kind) (f : T → T × Except PyErr α) : Prop :=
  ∀ t, frozen (f t).1 = frozen t ∧ kinds (f t).1 = kinds t

theorem single_keeps {α : Type} {frozen : T → Bool} {kinds : T → List Kind} {f : T → T × Except PyErr α} (h : Keeps frozen kinds f) (t : T) :
    Single frozen kinds (f t).1 ↔ Single frozen kinds t := by
  unfold Single
  rw [(h t).1, (h t).2]

/-- **Other tractors**: `GpuOptimizer.optimize` does for them what `SmarterDenseOptimizer.optimize` does. -/
theorem C175_fallback (frozen : T → Bool) (kinds : T → List Kind) (C : Cpu T R N D) (G : Dev T R N) (hd : Keeps frozen kinds C.derivs)
    (hs : ∀ d p s, Keeps frozen kinds (C.solve d p s)) (k : Kwargs R) (justVar : Bool) (alphas : Option (List R)) (t : T) (h : ¬ Single frozen kinds t) :
    optimize (gpu frozen kinds C G) k justVar alphas t = optimize (smarter C) k justVar alphas t := by
  have f : ∀ t, ¬ Single frozen kinds t → oneSource frozen kinds t = false := by
    intro t h
    rw [← oneSource_iff] at h
    simpa using h
  have h1 : (gpu frozen kinds C G).update k false t = (smarter C).update k false t := by
    unfold gpu choose
    simp only [f t h, Bool.not_false, if_true]
  have h2 : ∀ t' e, (smarter C).update k false t = (t', e) → ¬ Single frozen kinds t' := by
    intro t' e he
    have hk : frozen ((smarter C).update k false t).1 = frozen t ∧ kinds ((smarter C).update k false t).1 = kinds t := by
      unfold smarter
      dsimp only
      have k1 := hd t
      rcases hc : C.derivs t with ⟨t1, e1 | d⟩
      · rw [hc] at k1
        exact k1
      · rw [hc] at k1
        dsimp only
        by_cases c1 : (k.shared || decide (0 < k.damp) || k.variance) = true
        · rw [if_pos c1]
          exact k1
        · rw [if_neg c1]
          by_cases c2 : k.damp ≠ 0
          · rw [if_pos c2]
            exact k1
          · rw [if_neg c2]
            have k2 := hs d k.priors k.scale t1
            rcases hc2 : C.solve d k.priors k.scale t1 with ⟨t2, e2 | x⟩
            · rw [hc2] at k2
              exact ⟨k2.1.trans k1.1, k2.2.trans k1.2⟩
            · rw [hc2] at k2
              exact ⟨k2.1.trans k1.1, k2.2.trans k1.2⟩
    rw [he] at hk
    unfold Single at h ⊢
    rw [hk.1, hk.2]
    exact h
  unfold optimize
  rw [h1]
  rcases hu : (smarter C).update k false t with ⟨t', e⟩
  have h3 : ∀ x v, finish (gpu frozen kinds C G) alphas x v t' = finish (smarter C) alphas x v t' := by
    intro x v
    unfold finish
    have : (gpu frozen kinds C G).tryUpdates x alphas t' = (smarter C).tryUpdates x alphas t' := by
      unfold gpu choose
      simp only [f t' (h2 t' e hu), Bool.not_false, if_true]
    rw [this]
  rcases e with e | (_ | x | ⟨x, v⟩) <;> dsimp only <;> simp only [h3]

/-- **The tractors that the GPU code is for**, without variances: `GpuOptimizer.optimize` finds the direction and the step with the GPU code, whatever `damp`, `scale_columns`
and `shared_params` are (`SmarterDenseOptimizer` refuses the default `shared_params=True`, and damping). -/
theorem C175_gpu (frozen : T → Bool) (kinds : T → List Kind) (C : Cpu T R N D) (G : Dev T R N) (hu : ∀ p, Keeps frozen kinds (G.update p))
    (k : Kwargs R) (hv : k.variance = false) (justVar : Bool) (alphas : Option (List R)) (t : T) (h : Single frozen kinds t) :
    (∀ t' e, G.update k.priors t = (t', .error e) → optimize (gpu frozen kinds C G) k justVar alphas t = (t', .error e)) ∧
    (∀ t', G.update k.priors t = (t', .ok none) → optimize (gpu frozen kinds C G) k justVar alphas t = (t', .ok (.triple 0 none 0))) ∧
    (∀ t', G.update k.priors t = (t', .ok (some [])) → optimize (gpu frozen kinds C G) k justVar alphas t = (t', .ok (.triple 0 (some []) 0))) ∧
    ∀ t' x, x ≠ [] → G.update k.priors t = (t', .ok (some x)) →
      (∀ t'' d a, G.tryUpdates x alphas t' = (t'', .ok (d, a)) → optimize (gpu frozen kinds C G) k justVar alphas t = (t'', .ok (.triple d (some x) a))) ∧
      (∀ t'' e, G.tryUpdates x alphas t' = (t'', .error e) → optimize (gpu frozen kinds C G) k justVar alphas t = (t'', .error e)) := by
  have f : ∀ t, Single frozen kinds t → oneSource frozen kinds t = true := fun t h => (oneSource_iff frozen kinds t).mpr h
  refine ⟨fun t' e he => ?_, fun t' he => ?_, fun t' he => ?_, fun t' x hx he => ?_⟩
  · simp [optimize, gpu, choose, f t h, he]
  · simp [optimize, gpu, choose, f t h, he, Found.ofOption]
  · simp [optimize, gpu, choose, f t h, he, Found.ofOption, hv, finish]
  · have h' : Single frozen kinds t' := by
      have := (single_keeps (hu k.priors) t).mpr h
      rw [he] at this
      exact this
    refine ⟨fun t'' d a hd => ?_, fun t'' e hd => ?_⟩
    · simp [optimize, gpu, choose, f t h, he, Found.ofOption, hv, finish, hx, f t' h', hd]
    · simp [optimize, gpu, choose, f t h, he, Found.ofOption, hv, finish, hx, f t' h', hd]

/-- **Variances**: asked for variances, `SmarterDenseOptimizer.optimize` raises RuntimeError (once the derivatives are found).  `GpuOptimizer.optimize` raises nothing of the
kind for the tractors that the GPU code is for: with a direction of other than two components it raises ValueError; with two it raises TypeError, or, if only the
variances are asked for, returns the second component of the direction for the variances.  No step is made. -/
theorem C175_variance (frozen : T → Bool) (kinds : T → List Kind) (C : Cpu T R N D) (G : Dev T R N) (k : Kwargs R) (hv : k.variance = true)
    (alphas : Option (List R)) (t t' : T) (h : Single frozen kinds t) :
    (∀ d justVar, C.derivs t = (t', .ok d) → optimize (smarter C) k justVar alphas t = (t', .error .runtime)) ∧
    (∀ x : List R, G.update k.priors t = (t', .ok (some x)) →
      (x.length ≠ 0 → x.length ≠ 2 → ∀ justVar, optimize (gpu frozen kinds C G) k justVar alphas t = (t', .error .value)) ∧
      ∀ a b, x = [a, b] → optimize (gpu frozen kinds C G) k false alphas t = (t', .error .typeErr) ∧
        optimize (gpu frozen kinds C G) k true alphas t = (t', .ok (.number b))) := by
  have f : oneSource frozen kinds t = true := (oneSource_iff frozen kinds t).mpr h
  refine ⟨fun d justVar hd => ?_, fun x hx => ⟨fun h0 h2 justVar => ?_, ?_⟩⟩
  · simp [optimize, smarter, hd, hv]
  · rcases x with _ | ⟨a, _ | ⟨b, _ | ⟨c, l⟩⟩⟩
    · exact absurd rfl h0
    · simp [optimize, gpu, choose, f, hx, Found.ofOption, hv]
    · exact absurd rfl h2
    · simp [optimize, gpu, choose, f, hx, Found.ofOption, hv]
  · rintro a b rfl
    constructor
    · simp [optimize, gpu, choose, f, hx, Found.ofOption, hv]
    · simp [optimize, gpu, choose, f, hx, Found.ofOption, hv]

section Cons

open Verif.Params Verif.Engine Verif.Fit

variable {K M : Type} [Field K] [LinearOrder K]

local instance : Zero (Num K) := ⟨.fin 0⟩

/-- The work of the CPU code as in C144; the attributes of the optimizer are kept beside the tractor. -/
def consCpu (sqrt : K → K) (lstsq : Nat → Nat → Lsq.Dense K → (Nat → K) → List K) (tiny : K) (W : World K M)
    (hooks : Tractor K M → Nat → Nat → Option (List (Deriv K))) : Cpu (Tractor K M × Opt.OptFlags) K (Num K) (List (List (DerivEntry K))) where
  derivs := fun t =>
    let r := getDerivs W (fun T img => getModelImage W T img none true) (hooks t.1) t.1
    ((r.1, t.2), r.2)
  solve := fun out priors scale t =>
    (t, match inputs W ⟨scale, false, priors⟩ t.1 out with
      | .error e => .error e
      | .ok (l, ds, pr) => Lsq.smartUpdateDirection sqrt lstsq (lsqImgs l) ds pr scale)
  tryUpdates := fun x alphas t =>
    let r := Opt.tryUpdatesC tiny (lnp W t.1) none t.2 t.1.par x (alphas.getD [])
    ((withPar t.1 r.1, r.2.1), r.2.2)

/-- What `optimize` returns in C144: gain and step fraction. -/
def Out.short {R N : Type} : Out R N → Option (N × R)
  | .triple d _ a => some (d, a)
  | _ => none

/-- The optimizer of C144 is this one: `GpuFriendlyOptimizer.optimize`, without damping and variances, is the `optimize` for which C144 is proved. -/
theorem C175_constrained (frozen : Tractor K M × Opt.OptFlags → Bool) (kinds : Tractor K M × Opt.OptFlags → List Kind) (sqrt : K → K)
    (lstsq : Nat → Nat → Lsq.Dense K → (Nat → K) → List K) (tiny : K) (W : World K M)
    (hooks : Tractor K M → Nat → Nat → Option (List (Deriv K))) (o : Opts) (alphas : List K) (fl : Opt.OptFlags) (t : Tractor K M) :
    ∃ r, optimize (friendly frozen kinds (consCpu sqrt lstsq tiny W hooks)) ⟨0, o.priors, o.scale, o.shared, false⟩ false (some alphas) (t, fl) = r ∧
      (r.1.1, r.1.2, r.2.map Out.short) =
        ((Cons.optimize (.smarter sqrt lstsq) tiny W hooks o alphas fl t).1, (Cons.optimize (.smarter sqrt lstsq) tiny W hooks o alphas fl t).2.1,
          (Cons.optimize (.smarter sqrt lstsq) tiny W hooks o alphas fl t).2.2.map some) := by
  refine ⟨_, (C175_friendly frozen kinds _ _ _ _ _).1, ?_⟩
  unfold Cons.optimize Cons.directionM Cons.smarterDirection optimize smarter
  dsimp only [consCpu]
  rcases getDerivs W (fun T img => getModelImage W T img none true) (hooks t) t with ⟨T', e | out⟩
  · rfl
  dsimp only
  by_cases hs : o.shared = true
  · simp only [hs, Bool.true_or, if_true]
    rfl
  · have hi : inputs W ⟨o.scale, false, o.priors⟩ T' out = inputs W o T' out := rfl
    simp only [hs, lt_irrefl, decide_false, Bool.or_false, ne_eq, not_true_eq_false, if_false, hi]
    rcases inputs W o T' out with e | ⟨l, ds, pr⟩
    · rfl
    dsimp only
    rcases Lsq.smartUpdateDirection sqrt lstsq (lsqImgs l) ds pr o.scale with e | (_ | (_ | ⟨a, x⟩))
    · rfl
    · rfl
    · rfl
    · dsimp only [Found.ofOption, finish]
      rw [if_neg Bool.false_ne_true]
      dsimp only
      rw [if_neg Bool.false_ne_true, if_neg (by simp), Option.getD_some, if_neg Bool.false_ne_true]
      dsimp only
      rcases Opt.tryUpdatesC tiny (lnp W T') none fl T'.par (a :: x) alphas with ⟨p, f', e | ⟨d, b⟩⟩
      · rfl
      · rfl

end Cons

/-! A tractor of which only the catalog matters: the CPU finds the direction [1, 2, 3], the GPU [4, 5]; a line search gains the number of components. -/

def exCpu : Cpu (List Kind) Int Int Unit := ⟨fun t => (t, .ok ()), fun _ _ _ t => (t, .ok (some [1, 2, 3])), fun x _ t => (t, .ok (x.length, 1))⟩

def exDev : Dev (List Kind) Int Int := ⟨fun _ t => (t, .ok (some [4, 5])), fun x _ t => (t, .ok (10 * x.length, 1))⟩

def exKw : Kwargs Int := ⟨0, true, true, false, false⟩

theorem exSingle : Single (fun _ : List Kind => true) id [.missing, .constantSB] := ⟨rfl, .inr (.inr ⟨.missing, .inr (.inr rfl), rfl⟩)⟩

-- two galaxies: the CPU; one point source: the GPU, also with `shared_params=True`
example : optimize (gpu (fun _ => true) id exCpu exDev) exKw false none [.profileGalaxy, .profileGalaxy] =
      ([.profileGalaxy, .profileGalaxy], .ok (.triple 3 (some [1, 2, 3]) 1)) :=
  (C175_fallback (fun _ => true) id exCpu exDev (fun _ => ⟨rfl, rfl⟩) (fun _ _ _ _ => ⟨rfl, rfl⟩) exKw false none [.profileGalaxy, .profileGalaxy] (by
    rintro ⟨-, h | h | ⟨a, -, h⟩⟩ <;> simp at h)).trans (by rfl)

example : optimize (gpu (fun _ => true) id exCpu exDev) { exKw with shared := true } false none [.pointSource] =
      ([.pointSource], .ok (.triple 20 (some [4, 5]) 1)) :=
  ((C175_gpu (fun _ => true) id exCpu exDev (fun _ _ => ⟨rfl, rfl⟩) { exKw with shared := true } rfl false none [.pointSource] ⟨rfl, .inr (.inl rfl)⟩).2.2.2
    [.pointSource] [4, 5] (by simp) rfl).1 _ _ _ rfl

-- `GpuFriendlyOptimizer` uses the CPU for it
example : optimize (friendly (fun _ => true) id exCpu) exKw false none [.pointSource] = ([.pointSource], .ok (.triple 3 (some [1, 2, 3]) 1)) :=
  (C175_friendly (fun _ => true) id exCpu exKw false none [.pointSource]).1.trans (by rfl)

-- the second component of the direction for the variances
example : optimize (gpu (fun _ => true) id exCpu exDev) { exKw with variance := true } true none [.missing, .constantSB] = ([.missing, .constantSB], .ok (.number 5)) :=
  (((C175_variance (fun _ => true) id exCpu exDev { exKw with variance := true } rfl none _ _ exSingle).2 [4, 5] rfl).2 4 5 rfl).2

example : (gpu (fun _ => true) id exCpu exDev).update exKw true [.missing, .constantSB] = ([.missing, .constantSB], .error .assertion) :=
  ((C175_icov (fun _ => true) id exCpu exDev exKw _).1 exSingle).2

end Verif.GpuPick
