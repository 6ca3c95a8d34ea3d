import Verif.Fit.Chain
import Verif.Fit.PropsTurns

/-!
# Fits passed on as priors
-/

namespace Verif.Fit

open Verif Params Patches Engine Finset

section Examples

def exNiIm (z : ℚ × ℚ × ℚ × ℚ) : Image ℚ :=
  ⟨0, .nil, ⟨1, 2, fun _ x => if x = 0 then z.1 else z.2.1⟩, ⟨1, 2, fun _ x => if x = 0 then z.2.2.1 else z.2.2.2⟩⟩

def exNiPar (pr : List (ℚ × ℚ)) (a : ℚ) : Par ℚ := .plist ⟨[⟨["a"], true, a⟩], [none], [none], [none], none, pr.map (fun z => (0, z))⟩

def exNi (l : List (ℚ × ℚ × ℚ × ℚ)) (pa pb : List (ℚ × ℚ)) (a b : ℚ) : Tractor ℚ Unit :=
  ⟨false, l.map (fun z => (false, exNiIm z)), true, [(true, some ⟨10, exNiPar pa a⟩), (true, some ⟨11, exNiPar pb b⟩)], none, false⟩

def exNiD (c : ℚ) (k _i _y x : Nat) : ℚ := exTwCol c k x

variable (l : List (ℚ × ℚ × ℚ × ℚ)) (pa pb : List (ℚ × ℚ))

theorem exNiN (a b : ℚ) : numberOfParams (exNi l pa pb a b).par = 2 := rfl

theorem exNiSet (a b a' b' : ℚ) : setAll (exNi l pa pb a b) [a', b'] = exNi l pa pb a' b' := by
  have h : imagesFrom (l.map (fun z => (false, exNiIm z))) (imagesSubs (l.map (fun z => (false, exNiIm z)))) = l.map (fun z => (false, exNiIm z)) := by
    have e := setAll_self (exNi l pa pb a b)
    have := congrArg Tractor.images e
    exact this
  show ({ exNi l pa pb a' b' with images := imagesFrom (l.map (fun z => (false, exNiIm z))) (imagesSubs (l.map (fun z => (false, exNiIm z)))) } : Tractor ℚ Unit) = _
  rw [h]
  rfl

theorem exNiImages (a b : ℚ) (i : Nat) (s : Bool) (im : Image ℚ) (h : (exNi l pa pb a b).images[i]? = some (s, im)) :
    ∃ z ∈ l, l[i]? = some z ∧ s = false ∧ im = exNiIm z := by
  simp only [exNi, List.getElem?_map, Option.map_eq_some_iff, Prod.mk.injEq] at h
  obtain ⟨z, h1, h2, h3⟩ := h
  exact ⟨z, List.mem_of_getElem? h1, h1, h2.symm, h3.symm⟩

theorem exNiModel (c a b : ℚ) (z : ℚ × ℚ × ℚ × ℚ) : ∃ A, getModelImage (exTwWorld c) (exNi l pa pb a b) (exNiIm z) none true = .ok A ∧
    ∀ x < 2, A.px 0 x = a * exTwCol c 0 x + b * exTwCol c 1 x := by
  obtain ⟨-, h⟩ := C29_model_image (exTwWorld c) (exNi l pa pb a b) (exNiIm z) (by intro masks h; cases h) none
  obtain ⟨r, g1, -, -, g2⟩ := h [some ⟨0, 0, some ⟨1, 2, fun _ x => a * exTwCol c 0 x⟩⟩, some ⟨0, 0, some ⟨1, 2, fun _ x => b * exTwCol c 1 x⟩⟩]
    (.cons ⟨none, .nomasks rfl, rfl⟩ (.cons ⟨none, .nomasks rfl, rfl⟩ .nil)) true
  refine ⟨r, g1, fun x hx => ?_⟩
  rw [g2 0 x Nat.one_pos hx]
  interval_cases x <;> simp [exTwWorld, Sky.at, patchAt, Patch.at]

theorem exNiPixel (c a b : ℚ) (i : Nat) (hi : i < l.length) (x : Nat) (hx : x < 2) :
    pixel (exTwWorld c) (exNi l pa pb a b) i 0 x = a * exTwCol c 0 x + b * exTwCol c 1 x := by
  obtain ⟨A, e1, e2⟩ := exNiModel l pa pb c a b l[i]
  unfold pixel
  rw [show (exNi l pa pb a b).images[i]? = some (false, exNiIm l[i]) by simp [exNi, hi]]
  dsimp only
  rw [e1]
  exact e2 x hx

theorem exNiReady (ha : ∀ z ∈ pa, z.2 ≠ 0) (hb : ∀ z ∈ pb, z.2 ≠ 0) (c a b : ℚ) : Ready (exTwWorld c) exHooks (exNi l pa pb a b) := by
  have him : ∀ x ∈ (exNi l pa pb a b).images, ∃ z, x = (false, exNiIm z) := by
    intro x hx
    simp only [exNi, List.mem_map] at hx
    obtain ⟨z, -, h⟩ := hx
    exact ⟨z, h.symm⟩
  refine ⟨fun x _ masks (h : none = some masks) => (by cases h), ?_, ?_, ?_, ?_, ?_⟩
  · intro x hx
    obtain ⟨z, rfl⟩ := him x hx
    exact ⟨rfl, rfl, by show 2 * 1 < 2 ^ 31; norm_num⟩
  · have him' : ∀ l : List (ℚ × ℚ × ℚ × ℚ), PriorsOKSubs (imagesSubs (l.map (fun z => (false, exNiIm z)))) := by
      intro l
      induction l with
      | nil => simp [imagesSubs, PriorsOKSubs]
      | cons z l ih => simp [imagesSubs, PriorsOKSubs, exNiIm, PriorsOK] at ih ⊢; exact ih
    refine ⟨him' l, ⟨?_, ?_, trivial⟩, trivial⟩
    · intro t ht
      obtain ⟨z, h1, rfl⟩ := List.mem_map.1 ht
      exact ⟨Nat.one_pos, ha z h1⟩
    · intro t ht
      obtain ⟨z, h1, rfl⟩ := List.mem_map.1 ht
      exact ⟨Nat.one_pos, hb z h1⟩
  · intro i x _ _ y _ _ l hl
    cases hl
  · intro x hx _
    obtain ⟨z, rfl⟩ := him x hx
    rfl
  · intro src hs x _ ds hds
    simp only [exNi, List.mem_cons, List.not_mem_nil, or_false, Prod.mk.injEq, Option.some.injEq] at hs
    obtain ⟨mask, -, rfl⟩ := hds
    split
    · simp
    · rcases hs with ⟨-, rfl⟩ | ⟨-, rfl⟩ <;> exact Nat.le_refl 1

theorem exNiLoc (a b : ℚ) (k o j : Nat) (h : Located (exNi l pa pb a b) k o j) : j = 0 ∧ k < 2 ∧ o = l.length + k := by
  obtain ⟨n, h1, h2, h3⟩ := h
  have hb : blocks (exNi l pa pb a b) = List.replicate l.length 0 ++ [1, 1] := by
    show (l.map (fun z => (false, exNiIm z))).map _ ++ _ = _
    congr 1
    rw [List.map_map]
    exact List.eq_replicate_iff.2 ⟨by simp, fun x hx => by obtain ⟨z, -, rfl⟩ := List.mem_map.1 hx; rfl⟩
  rw [hb] at h1 h3
  by_cases ho : o < l.length
  · rw [List.getElem?_append_left (by simpa using ho)] at h1
    simp [ho] at h1
    omega
  · obtain ⟨t, rfl⟩ := Nat.exists_eq_add_of_le (Nat.le_of_not_lt ho)
    rw [List.getElem?_append_right (by simp), List.length_replicate, Nat.add_sub_cancel_left] at h1
    rw [List.take_append, List.length_replicate, Nat.add_sub_cancel_left, List.sum_append, List.take_replicate, List.sum_replicate] at h3
    match t, h1 with
    | 0, h1 => simp at h1 h3; omega
    | 1, h1 => simp at h1 h3; omega
    | t + 2, h1 => simp at h1

theorem exNiLinear (c a b : ℚ) : Linear (exTwWorld c) exHooks (exNi l pa pb a b) (fun _ _ _ => 0) (exNiD c) := by
  refine ⟨?_, ?_, ?_⟩
  · intro p hp i s im hi A hA y x hy hx
    obtain ⟨a', b', rfl⟩ := exTwList p hp
    rw [exNiSet] at hi hA
    obtain ⟨z, -, hz, rfl, rfl⟩ := exNiImages _ _ _ _ _ i s im hi
    obtain ⟨A', e1, e2⟩ := exNiModel l pa pb c a' b' z
    rw [hA] at e1
    cases e1
    have hy : y < 1 := hy
    obtain rfl : y = 0 := by omega
    rw [e2 x hx, exNiN]
    simp [sum_range_succ, exNiD]
  · intro k o' j s src hloc hc i s' im hi ds hds y x hy hx
    obtain ⟨z, -, -, rfl, rfl⟩ := exNiImages _ _ _ _ _ i s' im hi
    have hy : y < 1 := hy
    have hx : x < 2 := hx
    obtain rfl : y = 0 := by omega
    obtain ⟨mask, -, rfl⟩ := hds
    rw [if_neg (by simp [exNi])]
    have hl : (exNi l pa pb a b).images.length = l.length := by simp [exNi]
    rw [hl] at hloc
    obtain ⟨rfl, h1, h2⟩ := exNiLoc l pa pb a b k _ j hloc
    obtain rfl : o' = k := by omega
    interval_cases o'
    · simp [exNi] at hc
      obtain ⟨-, rfl⟩ := hc
      interval_cases x <;> simp [exTwWorld, patchAt, Patch.at, exNiD]
    · simp [exNi] at hc
      obtain ⟨-, rfl⟩ := hc
      interval_cases x <;> simp [exTwWorld, patchAt, Patch.at, exNiD]
  · intro k o j s im hloc ho
    obtain ⟨-, -, rfl⟩ := exNiLoc l pa pb a b k o j hloc
    rw [List.getElem?_eq_none (by simp [exNi])] at ho
    cases ho

/-- The sum of the squared inverse errors of pixel `k`. -/
def exNiW (l : List (ℚ × ℚ × ℚ × ℚ)) (k : Nat) : ℚ := (l.map (fun z => (if k = 0 then z.2.2.1 else z.2.2.2) ^ 2)).sum

theorem exNiThawed (a b : ℚ) : thawedPriors (exNi l pa pb a b).par = [(a, pa), (b, pb)] := by
  have key : ∀ pr : List (ℚ × ℚ), (((pr.map (fun z => (0, z))).filter (fun t : Nat × ℚ × ℚ => t.1 = 0)).map (·.2)) = pr := by
    intro pr
    induction pr with
    | nil => rfl
    | cons z pr ih => simpa using ih
  have : thawedPriors (exNi l pa pb a b).par = [(a, (((pa.map (fun z => (0, z))).filter (fun t : Nat × ℚ × ℚ => t.1 = 0)).map (·.2))),
      (b, (((pb.map (fun z => (0, z))).filter (fun t : Nat × ℚ × ℚ => t.1 = 0)).map (·.2)))] := by
    show thawedPriorsSubs (.cons ["images"] false _ (.cons ["catalog"] true _ .nil)) = _
    rw [thawedPriorsSubs_cons_false]
    rfl
  rw [this, key, key]

theorem exNiWidths (a b : ℚ) : widths ⟨true, false, true⟩ (exNi l pa pb a b) 0 = pa.map (·.2) ∧
    widths ⟨true, false, true⟩ (exNi l pa pb a b) 1 = pb.map (·.2) := by
  unfold widths
  rw [exNiThawed]
  exact ⟨rfl, rfl⟩

theorem exNiEffect (a b : ℚ) : effect ⟨true, false, true⟩ (exNi l pa pb a b) (exNiD 0) 0 = exNiW l 0 + (pa.map (fun z => (1 / z.2) ^ 2)).sum ∧
    effect ⟨true, false, true⟩ (exNi l pa pb a b) (exNiD 0) 1 = exNiW l 1 + (pb.map (fun z => (1 / z.2) ^ 2)).sum := by
  have key : ∀ g : Bool × Image ℚ → ℚ, (exNi l pa pb a b).images.zipIdx.map (fun x => g x.1) = l.map (fun z => g (false, exNiIm z)) := by
    intro g
    rw [show (fun x : (Bool × Image ℚ) × Nat => g x.1) = g ∘ Prod.fst from rfl, ← List.map_map, List.zipIdx_map_fst]
    simp [exNi]
  unfold effect
  rw [(exNiWidths l pa pb a b).1, (exNiWidths l pa pb a b).2, List.map_map, List.map_map]
  have h0 := key (fun x => ∑ r ∈ range x.2.data.h, ∑ c ∈ range x.2.data.w, (exNiD 0 0 0 r c * x.2.inverr.px r c) ^ 2)
  have h1 := key (fun x => ∑ r ∈ range x.2.data.h, ∑ c ∈ range x.2.data.w, (exNiD 0 1 0 r c * x.2.inverr.px r c) ^ 2)
  constructor
  · refine congrArg₂ (· + ·) ((congrArg List.sum h0).trans ?_) rfl
    unfold exNiW
    congr 1
    refine List.map_congr_left (fun z _ => ?_)
    simp [exNiIm, exNiD, exTwCol, sum_range_succ]
  · refine congrArg₂ (· + ·) ((congrArg List.sum h1).trans ?_) rfl
    unfold exNiW
    congr 1
    refine List.map_congr_left (fun z _ => ?_)
    simp [exNiIm, exNiD, exTwCol, sum_range_succ]

theorem exNiFine (lsqr : Lsq.Problem ℚ → List ℚ) (hpa : ∀ z ∈ pa, z.2 ≠ 0) (hpb : ∀ z ∈ pb, z.2 ≠ 0)
    (h0 : 0 < exNiW l 0) (h1 : 0 < exNiW l 1) (a b : ℚ) :
    Fine ⟨fun _ => 1, 0, lsqr⟩ (exTwWorld 0) exHooks false (exNi l pa pb a b) (fun _ _ _ => 0) (exNiD 0) := by
  have hnn : ∀ pr : List (ℚ × ℚ), 0 ≤ (pr.map (fun z => (1 / z.2) ^ 2)).sum := by
    intro pr
    refine List.sum_nonneg (fun x hx => ?_)
    obtain ⟨z, -, rfl⟩ := List.mem_map.1 hx
    positivity
  refine ⟨?_, exNiLinear l pa pb 0 a b, ⟨.inl rfl, fun _ => ?_, fun h => by cases h⟩, by rw [exNiN]; norm_num, ?_⟩
  · intro p hp
    obtain ⟨a', b', rfl⟩ := exTwList p hp
    rw [exNiSet]
    exact exNiReady l pa pb hpa hpb 0 a' b'
  · intro k v hv _
    show (0 : ℚ) < |v / 1|
    simpa using hv
  · intro k hk
    rw [exNiN] at hk
    interval_cases k
    · rw [(exNiEffect l pa pb a b).1]
      have := hnn pa
      positivity
    · rw [(exNiEffect l pa pb a b).2]
      have := hnn pb
      positivity

theorem exNiIso (a b : ℚ) (k : Nat) (_hk : k < 2) : Isolated (exTwWorld 0) (exNi l pa pb a b) k := by
  intro i y x t im e1 e2 e3 _
  obtain ⟨z, -, hz, rfl, rfl⟩ := exNiImages _ _ _ _ _ i t im e1
  have hi : i < l.length := (List.getElem?_eq_some_iff.1 hz).1
  have hy : y < 1 := e2
  have hx : x < 2 := e3
  interval_cases y
  have hp : ∀ m, m ≠ x → ∀ (p : List ℚ) (v : ℚ), p.length = numberOfParams (exNi l pa pb a b).par →
      pixel (exTwWorld 0) (setAll (exNi l pa pb a b) (p.set m v)) i 0 x = pixel (exTwWorld 0) (setAll (exNi l pa pb a b) p) i 0 x := by
    intro m hm p v hp
    obtain ⟨a', b', rfl⟩ := exTwList p hp
    match m, hm with
    | 0, hm =>
      rw [List.set_cons_zero, exNiSet, exNiSet, exNiPixel _ _ _ _ _ _ i hi x hx, exNiPixel _ _ _ _ _ _ i hi x hx]
      obtain rfl : x = 1 := by omega
      simp [exTwCol]
    | 1, hm =>
      rw [List.set_cons_succ, List.set_cons_zero, exNiSet, exNiSet, exNiPixel _ _ _ _ _ _ i hi x hx, exNiPixel _ _ _ _ _ _ i hi x hx]
      obtain rfl : x = 0 := by omega
      simp [exTwCol]
    | m + 2, _ => rfl
  by_cases hkx : k = x
  · exact .inr (fun m hm => hp m (by omega))
  · exact .inl (hp k hkx)

theorem exNiTogether (l' : List (ℚ × ℚ × ℚ × ℚ)) (pa' pb' : List (ℚ × ℚ)) (c a b a' b' a'' b'' : ℚ) :
    Together (exTwWorld c) (exNi l pa pb a b) (exNi l' pa' pb' a' b') (exNi (l ++ l') pa pb a'' b'') := by
  refine ⟨rfl, rfl, by simp [exNi], by rw [exNiThawed, exNiThawed]; rfl, ?_, ?_⟩
  · intro p hp i t im h y x hy hx
    obtain ⟨u, v, rfl⟩ := exTwList p hp
    obtain ⟨z, -, hz, rfl, rfl⟩ := exNiImages _ _ _ _ _ i t im h
    have hi : i < l.length := (List.getElem?_eq_some_iff.1 hz).1
    have hy : y < 1 := hy
    interval_cases y
    rw [exNiSet, exNiSet, exNiPixel _ _ _ _ _ _ i hi x hx, exNiPixel _ _ _ _ _ _ i (by rw [List.length_append]; omega) x hx]
  · intro p hp i t im h y x hy hx
    obtain ⟨u, v, rfl⟩ := exTwList p hp
    obtain ⟨z, -, hz, rfl, rfl⟩ := exNiImages _ _ _ _ _ i t im h
    have hi : i < l'.length := (List.getElem?_eq_some_iff.1 hz).1
    have hl : (exNi l pa pb a b).images.length = l.length := by simp [exNi]
    have hy : y < 1 := hy
    interval_cases y
    rw [exNiSet, exNiSet, hl, exNiPixel _ _ _ _ _ _ i hi x hx, exNiPixel _ _ _ _ _ _ _ (by rw [List.length_append]; omega) x hx]

theorem exNiLogProb (hpa : ∀ z ∈ pa, z.2 ≠ 0) (hpb : ∀ z ∈ pb, z.2 ≠ 0) (c : ℚ) : ∃ C : ℚ, ∀ a b, logProb (exTwWorld c) (exNi l pa pb a b) =
    .ok (.fin (C - (1 / 2) * ((pa.map (fun z => ((a - z.1) / z.2) ^ 2)).sum + (pb.map (fun z => ((b - z.1) / z.2) ^ 2)).sum) -
      (1 / 2) * (l.map (fun z => ((z.1 - (a + b * c)) * z.2.2.1) ^ 2 + ((z.2.1 - b) * z.2.2.2) ^ 2)).sum)) := by
  have hr := exNiReady l pa pb hpa hpb c 0 0
  obtain ⟨C, hC⟩ := logPrior_form _ hr.prior
  refine ⟨C, fun a b => ?_⟩
  have h := logProb_pixels (exTwWorld c) (exNi l pa pb 0 0) hr.mask hr.shape [a, b] _ (hC [a, b] rfl)
  rw [exNiSet] at h
  rw [h, ← residual_pixels (exNi l pa pb 0 0) (fun i y x => pixel (exTwWorld c) (exNi l pa pb a b) i y x)]
  have e1 : ∑ k ∈ range (numberOfParams (exNi l pa pb 0 0).par), priorChi (exNi l pa pb 0 0).par [a, b] k =
      (pa.map (fun z => ((a - z.1) / z.2) ^ 2)).sum + (pb.map (fun z => ((b - z.1) / z.2) ^ 2)).sum := by
    rw [exNiN]
    unfold priorChi
    rw [exNiThawed]
    simp [sum_range_succ]
  have e2 : ∑ i ∈ range (exNi l pa pb 0 0).images.length, residual (exNi l pa pb 0 0) (fun i y x => pixel (exTwWorld c) (exNi l pa pb a b) i y x) i =
      (l.map (fun z => ((z.1 - (a + b * c)) * z.2.2.1) ^ 2 + ((z.2.1 - b) * z.2.2.2) ^ 2)).sum := by
    rw [sum_getElem, show (exNi l pa pb 0 0).images.length = l.length by simp [exNi]]
    refine sum_congr rfl (fun i hi => ?_)
    have hi := mem_range.1 hi
    unfold residual
    rw [show (exNi l pa pb 0 0).images[i]? = some (false, exNiIm l[i]) by simp [exNi, hi], List.getElem?_eq_getElem hi]
    have p0 := exNiPixel l pa pb c a b i hi 0 (by norm_num)
    have p1 := exNiPixel l pa pb c a b i hi 1 (by norm_num)
    simp [exNiIm, sum_range_succ, exTwCol] at p0 p1 ⊢
    rw [p0, p1]
  rw [e1, e2]
  congr 2
  ring

end Examples

variable {R M : Type} [Field R] [LinearOrder R]

/-! ### Adding a prior -/

/-- `addGaussianPrior` puts a prior on the named parameter and on no other, changes no value, and lowers the log-prior by half the square of the deviation of
the value from the mean in units of the width; with an unknown name it raises KeyError. -/
theorem C164_add [IsStrictOrderedRing R] (l : PList R) (hl : PriorsOK (.plist l)) (n : String) (mu sigma : R) (hs : sigma ≠ 0) :
    (∀ (i : Nat) (s : Slot R), l.slots[i]? = some s → n ∈ s.names → (∀ (j : Nat) (s' : Slot R), l.slots[j]? = some s' → n ∈ s'.names → j = i) →
      ∃ t, addPrior n mu sigma (.plist l) = .ok t ∧ PriorsOK t ∧ getParams t = getParams (.plist l) ∧
        (∀ L, getLogPrior (.plist l) = .ok L → getLogPrior t = .ok (L - (1 / 2) * ((s.val - mu) / sigma) ^ 2)) ∧
        ∀ j : Nat, (priorLeavesFrom true t)[j]? =
          ((priorLeavesFrom true (.plist l))[j]?).map (fun x => (x.1, x.2.1, if j = i then x.2.2 ++ [(mu, sigma)] else x.2.2))) ∧
    ((∀ s ∈ l.slots, n ∉ s.names) → addPrior n mu sigma (.plist l) = .error .key) := by
  have hnone : ∀ ss : List (Slot R), (∀ s ∈ ss, n ∉ s.names) → nameIndexSlots n ss = none := by
    intro ss h
    induction ss with
    | nil => rfl
    | cons s ss ih => rw [nameIndexSlots, if_neg (h s (by simp)), ih (fun s' hs' => h s' (by simp [hs']))]; rfl
  have hsome : ∀ (ss : List (Slot R)) (i : Nat) (s : Slot R), ss[i]? = some s → n ∈ s.names →
      (∀ (j : Nat) (s' : Slot R), ss[j]? = some s' → n ∈ s'.names → j = i) → nameIndexSlots n ss = some i := by
    intro ss
    induction ss with
    | nil => intro i s h; simp at h
    | cons s0 ss ih =>
      intro i s h hn hu
      by_cases h0 : n ∈ s0.names
      · rw [nameIndexSlots, if_pos h0, hu 0 s0 rfl h0]
      · match i, h, hu with
        | 0, h, _ => simp at h; subst h; exact absurd hn h0
        | i + 1, h, hu =>
          rw [nameIndexSlots, if_neg h0, ih i s (by simpa using h) hn (fun j s' hj hn' => by
            have := hu (j + 1) s' (by simpa using hj) hn'
            omega)]
          rfl
  have hchi : ∀ (p : List R) (i : Nat) (x : R), p[i]? = some x → ∀ ts c, gaussianChisq p ts = .ok c →
      gaussianChisq p (ts ++ [(i, mu, sigma)]) = .ok (c + ((x - mu) / sigma) ^ 2) := by
    intro p i x hx ts
    induction ts with
    | nil =>
      intro c hc
      cases hc
      simp [gaussianChisq, hx, Except.map, div_pow]
    | cons t ts ih =>
      obtain ⟨i', mu', s'⟩ := t
      intro c hc
      rw [List.cons_append, gaussianChisq]
      rw [gaussianChisq] at hc
      cases hp : p[i']? with
      | none => rw [hp] at hc; cases hc
      | some y =>
        rw [hp] at hc
        dsimp only at hc ⊢
        cases hg : gaussianChisq p ts with
        | error e => rw [hg] at hc; cases hc
        | ok c' =>
          rw [hg] at hc
          cases hc
          rw [ih c' hg]
          simp only [Except.map]
          congr 1
          ring
  refine ⟨fun i s hi hn hu => ?_, fun h => ?_⟩
  · refine ⟨.plist { l with priors := l.priors ++ [(i, mu, sigma)] }, ?_, ?_, rfl, ?_, ?_⟩
    · unfold addPrior
      dsimp only
      rw [show nameIndex n (.plist l) = some i from hsome _ i s hi hn hu]
    · intro t ht
      rcases List.mem_append.1 ht with ht | ht
      · exact hl t ht
      · simp only [List.mem_cons, List.not_mem_nil, or_false] at ht
        subst ht
        exact ⟨(List.getElem?_eq_some_iff.1 hi).1, hs⟩
    · intro L hL
      simp only [getLogPrior, gaussianLogPrior] at hL ⊢
      cases hc : gaussianChisq (vals l) l.priors with
      | error e => rw [hc] at hL; cases hL
      | ok c =>
        rw [hc] at hL
        have hv : (vals l)[i]? = some s.val := by simp [vals, hi]
        have e : vals { l with priors := l.priors ++ [(i, mu, sigma)] } = vals l := rfl
        rw [e, hchi (vals l) i s.val hv l.priors c hc]
        simp only [Except.map, Except.ok.injEq] at hL ⊢
        rw [← hL]
        ring
    · intro j
      simp only [priorLeavesFrom, List.getElem?_map, List.getElem?_zipIdx, Option.map_map]
      cases l.slots[j]? with
      | none => rfl
      | some s' =>
        by_cases hj : j = i
        · simp [hj]
        · simp [hj, Ne.symm hj]
  · unfold addPrior
    dsimp only
    rw [show nameIndex n (.plist l) = none from hnone _ h]

section
variable [IsStrictOrderedRing R]

/-! ### What a fit leaves behind -/

/-- For parameters that share no pixels and model images linear in them, the log-probability after a fit with variances is, everywhere, that of independent
Gaussians with the values found and the variances returned. -/
theorem C164_gaussian (S : Solver R) (hsq : Lsq.SqrtOK S.sqrt) (hS : Lsq.Solves S.lsqr) (W : World R M)
    (hooks : Tractor R M → Nat → Nat → Option (List (Deriv R))) (shared : Bool) (T : Tractor R M) (base : Nat → Nat → Nat → R)
    (D : Nat → Nat → Nat → Nat → R) (h : Fine S W hooks shared T base D) (hiso : ∀ k, k < numberOfParams T.par → Isolated W T k)
    (A B : List R) (hA : ∀ a ∈ A, 0 ≤ a) (hs : (A ++ [1]).Pairwise (· ≤ ·)) :
    ∃ T' r var L, optimizeVar S W hooks shared true false (A ++ 1 :: B) T = (T', .ok (some r, some var)) ∧ var.length = numberOfParams T.par ∧
      logProb W T' = .ok (.fin L) ∧ ∀ p : List R, p.length = numberOfParams T.par → logProb W (setAll T p) =
        .ok (.fin (L - (1 / 2) * ∑ k ∈ range (numberOfParams T.par), (p.getD k 0 - (getParams T'.par).getD k 0) ^ 2 / var.getD k 0)) := by
  obtain ⟨q, r, e1, e2, e3⟩ := h.run hsq hS A B hA hs
  obtain ⟨L, hL, -⟩ := id e3
  refine ⟨_, r, _, L, e1, by simp, hL, fun p hp => ?_⟩
  rw [isolated_form W hooks ⟨true, shared, true⟩ rfl T base D h.ready h.linear hiso q e2 e3 L hL p hp, getParams_setAll _ _ e2]
  congr 4
  refine sum_congr rfl (fun k hk => ?_)
  rw [getD_map_range _ _ k (mem_range.1 hk)]
  field_simp

/-- A fit with variances passed on as Gaussian priors: with the values found as means and the roots of the variances as widths, the log-probability of the
tractor with the later images alone is that of the tractor with all images, up to a constant, for all values of the parameters.  The model of the later images
need not be linear. -/
theorem C164_same (S : Solver R) (hsq : Lsq.SqrtOK S.sqrt) (hS : Lsq.Solves S.lsqr) (W : World R M)
    (hooks : Tractor R M → Nat → Nat → Option (List (Deriv R))) (shared : Bool) (TA : Tractor R M) (base : Nat → Nat → Nat → R)
    (D : Nat → Nat → Nat → Nat → R) (h : Fine S W hooks shared TA base D) (hiso : ∀ k, k < numberOfParams TA.par → Isolated W TA k)
    (A B : List R) (hA : ∀ a ∈ A, 0 ≤ a) (hs : (A ++ [1]).Pairwise (· ≤ ·)) :
    ∃ T' r var, optimizeVar S W hooks shared true false (A ++ 1 :: B) TA = (T', .ok (some r, some var)) ∧
      ∀ (TB TJ : Tractor R M) (s : List R), (∀ k, k < numberOfParams TA.par → s.getD k 0 ^ 2 = var.getD k 0) → PassedOn TB (getParams T'.par) s →
        Together W TA TB TJ → Ready W hooks TB → Ready W hooks TJ →
        ∃ C, ∀ p : List R, p.length = numberOfParams TJ.par →
          ∃ L, logProb W (setAll TB p) = .ok (.fin L) ∧ logProb W (setAll TJ p) = .ok (.fin (L + C)) := by
  obtain ⟨q, r, e1, e2, e3⟩ := h.run hsq hS A B hA hs
  refine ⟨_, r, _, e1, fun TB TJ s h1 h2 h3 h4 h5 => ?_⟩
  rw [getParams_setAll _ _ e2] at h2
  refine chain_form W hooks ⟨true, shared, true⟩ rfl TA TB TJ h3 base D h.ready h.linear h4 h5 hiso q s e2 e3 h2 (fun k hk => ?_)
  rw [h1 k hk, getD_map_range _ _ k hk, mul_one_div_cancel (h.seen k hk)]

/-- Any number of nights, one after the other, each with the result of the one before as priors: the last fit has the values and the variances of the fit to all
images at once. -/
theorem C164_nights (S : Solver R) (hsq : Lsq.SqrtOK S.sqrt) (hS : Lsq.Solves S.lsqr) (W : World R M)
    (hooks : Tractor R M → Nat → Nat → Option (List (Deriv R))) (shared : Bool) (root : R → R) (install : Tractor R M → List R → List R → Tractor R M)
    (A B : List R) (hA : ∀ a ∈ A, 0 ≤ a) (hs : (A ++ [1]).Pairwise (· ≤ ·)) (J : Night R M) (l : List (Night R M))
    (hJ : Fine S W hooks shared J.all J.base J.D) (hiso : ∀ k, k < numberOfParams J.all.par → Isolated W J.all k)
    (hN : Nights S W hooks shared root install J l) :
    ∃ T' J' r r' var, chain S W hooks shared (A ++ 1 :: B) root install J.all (l.map (·.own)) = (T', .ok (some r, some var)) ∧
      optimizeVar S W hooks shared true false (A ++ 1 :: B) (l.getLastD J).all = (J', .ok (some r', some var)) ∧ getParams T'.par = getParams J'.par :=
  chain_core hsq hS W hooks shared root install A B hA hs l J J.all J.base J.D hJ hiso hN hJ rfl (fun _ _ h => h) (fun _ _ => rfl)

end

/-! ### Examples -/

example : addPrior "a" (3 : ℚ) 2 (exNiPar [] 7) = .ok (exNiPar [(3, 2)] 7) ∧ addPrior "b" (3 : ℚ) 2 (exNiPar [] 7) = .error .key ∧
    getLogPrior (exNiPar [(3, 2)] 7) = .ok (-2) := by
  decide +kernel

/-- The priors are given to the sources in the catalog. -/
def exNiInstall (E : Tractor ℚ Unit) (m s : List ℚ) : Tractor ℚ Unit :=
  { E with catalog := E.catalog.zipIdx.map (fun z => (z.1.1, z.1.2.map (fun src =>
    match addPrior "a" (m.getD z.2 0) (s.getD z.2 0) src.par with
    | .ok t => { src with par := t }
    | .error _ => src))) }

def exNiNight (own all : List (ℚ × ℚ × ℚ × ℚ)) : Night ℚ Unit := ⟨exNi own [] [] 0 0, exNi all [] [] 0 0, fun _ _ _ => 0, exNiD 0⟩

def exNiA : ℚ × ℚ × ℚ × ℚ := (5, 2, 3, 3)
def exNiB : ℚ × ℚ × ℚ × ℚ := (7, 1, 4, 4)
def exNiC : ℚ × ℚ × ℚ × ℚ := (6, 4, 12, 12)

def exNiRoot (v : ℚ) : ℚ := if v = 1 / 9 then 1 / 3 else 1 / 5

theorem exNiStep (lsqr : Lsq.Problem ℚ → List ℚ) (l l' : List (ℚ × ℚ × ℚ × ℚ)) (n : List (Night ℚ Unit)) (hl : 0 < exNiW l 0 ∧ 0 < exNiW l 1)
    (hl' : 0 < exNiW l' 0 ∧ 0 < exNiW l' 1) (hll : 0 < exNiW (l ++ l') 0 ∧ 0 < exNiW (l ++ l') 1)
    (hroot : exNiRoot (1 / exNiW l 0) ^ 2 = 1 / exNiW l 0 ∧ exNiRoot (1 / exNiW l 1) ^ 2 = 1 / exNiW l 1) (o : List (ℚ × ℚ × ℚ × ℚ))
    (hn : Nights ⟨fun _ => 1, 0, lsqr⟩ (exTwWorld 0) exHooks false exNiRoot exNiInstall (exNiNight l' (l ++ l')) n) :
    Nights ⟨fun _ => 1, 0, lsqr⟩ (exTwWorld 0) exHooks false exNiRoot exNiInstall (exNiNight o l) (exNiNight l' (l ++ l') :: n) := by
  have he := exNiEffect l [] [] 0 0
  simp only [List.map_nil, List.sum_nil, add_zero] at he
  refine ⟨?_, exNiFine _ _ _ _ (by simp) (by simp) hll.1 hll.2 0 0, fun k hk => exNiIso _ _ _ 0 0 k hk, ?_, hn⟩
  · intro k hk
    have hk : k < 2 := hk
    interval_cases k
    · show exNiRoot (1 / effect _ (exNi l [] [] 0 0) (exNiD 0) 0) ^ 2 = 1 / effect _ (exNi l [] [] 0 0) (exNiD 0) 0
      rw [he.1]; exact hroot.1
    · show exNiRoot (1 / effect _ (exNi l [] [] 0 0) (exNiD 0) 1) ^ 2 = 1 / effect _ (exNi l [] [] 0 0) (exNiD 0) 1
      rw [he.2]; exact hroot.2
  · intro m s hm hs hv
    obtain ⟨m0, m1, rfl⟩ := exTwList m hm
    obtain ⟨s0, s1, rfl⟩ := exTwList s hs
    have e : exNiInstall (exNiNight l' (l ++ l')).own [m0, m1] [s0, s1] = exNi l' [(m0, s0)] [(m1, s1)] 0 0 := rfl
    rw [e]
    have h0 := hv 0 Nat.two_pos
    have h1 := hv 1 Nat.one_lt_two
    change s0 ^ 2 = 1 / effect _ (exNi l [] [] 0 0) (exNiD 0) 0 at h0
    change s1 ^ 2 = 1 / effect _ (exNi l [] [] 0 0) (exNiD 0) 1 at h1
    rw [he.1] at h0
    rw [he.2] at h1
    have z0 : s0 ≠ 0 := by
      rintro rfl
      have := one_div_pos.2 hl.1
      rw [← h0] at this
      norm_num at this
    have z1 : s1 ≠ 0 := by
      rintro rfl
      have := one_div_pos.2 hl.2
      rw [← h1] at this
      norm_num at this
    refine ⟨?_, exNiTogether l [] [] l' _ _ 0 0 0 0 0 0 0, _, _, exNiFine _ _ _ _ (by simpa using z0) (by simpa using z1) hl'.1 hl'.2 0 0⟩
    intro k hk
    have hk : k < 2 := hk
    rw [exNiThawed]
    interval_cases k <;> rfl

/-- Two stars in three nights: the fit of the third night, with the priors of the second, is that of all three. -/
example : ∃ T' J' r r' var, chain ⟨fun _ => 1, 0, Classical.choose (Lsq.solver_exists (R := ℚ))⟩ (exTwWorld 0) exHooks false ([1 / 2] ++ 1 :: [2]) exNiRoot
      exNiInstall (exNi [exNiA] [] [] 0 0) [exNi [exNiB] [] [] 0 0, exNi [exNiC] [] [] 0 0] = (T', .ok (some r, some var)) ∧
    optimizeVar ⟨fun _ => 1, 0, Classical.choose (Lsq.solver_exists (R := ℚ))⟩ (exTwWorld 0) exHooks false true false ([1 / 2] ++ 1 :: [2])
      (exNi [exNiA, exNiB, exNiC] [] [] 0 0) = (J', .ok (some r', some var)) ∧ getParams T'.par = getParams J'.par := by
  have h := C164_nights ⟨fun _ => 1, 0, Classical.choose (Lsq.solver_exists (R := ℚ))⟩ (fun _ _ => one_pos) (Classical.choose_spec Lsq.solver_exists)
    (exTwWorld 0) exHooks false exNiRoot exNiInstall [1 / 2] [2] (by norm_num) (by norm_num) (exNiNight [exNiA] [exNiA])
    [exNiNight [exNiB] ([exNiA] ++ [exNiB]), exNiNight [exNiC] (([exNiA] ++ [exNiB]) ++ [exNiC])]
    (exNiFine _ _ _ _ (by simp) (by simp) (by norm_num [exNiW, exNiA]) (by norm_num [exNiW, exNiA]) 0 0) (fun k hk => exNiIso _ _ _ 0 0 k hk)
    (exNiStep _ _ _ _ (by norm_num [exNiW, exNiA]) (by norm_num [exNiW, exNiB]) (by norm_num [exNiW, exNiA, exNiB])
      (by norm_num [exNiW, exNiA, exNiRoot]) _
      (exNiStep _ _ _ _ (by norm_num [exNiW, exNiA, exNiB]) (by norm_num [exNiW, exNiC]) (by norm_num [exNiW, exNiA, exNiB, exNiC])
        (by norm_num [exNiW, exNiA, exNiB, exNiRoot]) _ trivial))
  exact h

/-- The Gaussian left behind by the first night: the second star has the variance 1/9. -/
example : ∃ T' r var L, optimizeVar ⟨fun _ => 1, 0, Classical.choose (Lsq.solver_exists (R := ℚ))⟩ (exTwWorld 0) exHooks false true false ([] ++ 1 :: [])
      (exNi [exNiA] [] [] 0 0) = (T', .ok (some r, some var)) ∧ logProb (exTwWorld 0) T' = .ok (.fin L) ∧
    logProb (exTwWorld 0) (exNi [exNiA] [] [] 4 8) =
      .ok (.fin (L - (1 / 2) * ((4 - (getParams T'.par).getD 0 0) ^ 2 / var.getD 0 0 + (8 - (getParams T'.par).getD 1 0) ^ 2 / var.getD 1 0))) := by
  obtain ⟨T', r, var, L, h1, -, h3, h4⟩ := C164_gaussian ⟨fun _ => 1, 0, Classical.choose (Lsq.solver_exists (R := ℚ))⟩ (fun _ _ => one_pos)
    (Classical.choose_spec Lsq.solver_exists) (exTwWorld 0) exHooks false (exNi [exNiA] [] [] 0 0) _ _
    (exNiFine _ _ _ _ (by simp) (by simp) (by norm_num [exNiW, exNiA]) (by norm_num [exNiW, exNiA]) 0 0) (fun k hk => exNiIso _ _ _ 0 0 k hk)
    [] [] (by simp) (by simp)
  refine ⟨T', r, var, L, h1, h3, ?_⟩
  have := h4 [4, 8] rfl
  rw [exNiSet, exNiN] at this
  simpa [sum_range_succ] using this

/-- The second night with the priors of the first, which have the width 1/3, and both nights. -/
example : ∃ T' r var, optimizeVar ⟨fun _ => 1, 0, Classical.choose (Lsq.solver_exists (R := ℚ))⟩ (exTwWorld 0) exHooks false true false ([] ++ 1 :: [])
      (exNi [exNiA] [] [] 0 0) = (T', .ok (some r, some var)) ∧ ∀ m0 m1, getParams T'.par = [m0, m1] → var = [1 / 9, 1 / 9] →
    ∃ C, ∀ a b, ∃ L, logProb (exTwWorld 0) (exNi [exNiB] [(m0, 1 / 3)] [(m1, 1 / 3)] a b) = .ok (.fin L) ∧
      logProb (exTwWorld 0) (exNi [exNiA, exNiB] [] [] a b) = .ok (.fin (L + C)) := by
  obtain ⟨T', r, var, h1, h2⟩ := C164_same ⟨fun _ => 1, 0, Classical.choose (Lsq.solver_exists (R := ℚ))⟩ (fun _ _ => one_pos)
    (Classical.choose_spec Lsq.solver_exists) (exTwWorld 0) exHooks false (exNi [exNiA] [] [] 0 0) _ _
    (exNiFine _ _ _ _ (by simp) (by simp) (by norm_num [exNiW, exNiA]) (by norm_num [exNiW, exNiA]) 0 0) (fun k hk => exNiIso _ _ _ 0 0 k hk)
    [] [] (by simp) (by simp)
  refine ⟨T', r, var, h1, fun m0 m1 hm hv => ?_⟩
  obtain ⟨C, hC⟩ := h2 (exNi [exNiB] [(m0, 1 / 3)] [(m1, 1 / 3)] 0 0) (exNi [exNiA, exNiB] [] [] 0 0) [1 / 3, 1 / 3]
    (by
      intro k hk
      have hk : k < 2 := hk
      rw [hv]
      interval_cases k <;> norm_num)
    (by
      intro k hk
      have hk : k < 2 := hk
      rw [exNiThawed, hm]
      interval_cases k <;> rfl)
    (exNiTogether [exNiA] [] [] [exNiB] _ _ 0 0 0 0 0 0 0) (exNiReady _ _ _ (by simp) (by simp) _ _ _) (exNiReady _ _ _ (by simp) (by simp) _ _ _)
  refine ⟨C, fun a b => ?_⟩
  have := hC [a, b] rfl
  rwa [exNiSet, exNiSet] at this

/-! ### Sources that overlap -/

/-- With stars that share pixels it is different: all of the above holds, but no values are a best fit both with the priors and to all images. -/
theorem C164_overlap_false : ∃ (TA TB TJ : Tractor ℚ Unit) (m s : List ℚ), Together (exTwWorld 1) TA TB TJ ∧ numberOfParams TA.par = 2 ∧
    (∀ T ∈ [TA, TB, TJ], Ready (exTwWorld 1) exHooks T ∧ Linear (exTwWorld 1) exHooks T (fun _ _ _ => 0) (exNiD 1)) ∧ Best (exTwWorld 1) (setAll TA m) ∧
    PassedOn TB m s ∧ (∀ k, k < 2 → s.getD k 0 ^ 2 = 1 / effect ⟨true, false, true⟩ TA (exNiD 1) k) ∧
    ∀ p : List ℚ, p.length = 2 → ¬ (Best (exTwWorld 1) (setAll TB p) ∧ Best (exTwWorld 1) (setAll TJ p)) := by
  refine ⟨exNi [(5, 2, 3, 4)] [] [] 0 0, exNi [(0, 0, 1, 1)] [(3, 1 / 3)] [(2, 1 / 5)] 0 0, exNi ([(5, 2, 3, 4)] ++ [(0, 0, 1, 1)]) [] [] 0 0, [3, 2], [1 / 3, 1 / 5],
    exNiTogether _ _ _ _ _ _ _ _ _ _ _ _ _, rfl, ?_, ?_, ?_, ?_, ?_⟩
  · intro T hT
    simp only [List.mem_cons, List.not_mem_nil, or_false] at hT
    rcases hT with rfl | rfl | rfl
    · exact ⟨exNiReady _ _ _ (by simp) (by simp) _ _ _, exNiLinear _ _ _ _ _ _⟩
    · exact ⟨exNiReady _ _ _ (by simp) (by simp) _ _ _, exNiLinear _ _ _ _ _ _⟩
    · exact ⟨exNiReady _ _ _ (by simp) (by simp) _ _ _, exNiLinear _ _ _ _ _ _⟩
  · obtain ⟨C, hC⟩ := exNiLogProb [(5, 2, 3, 4)] [] [] (by simp) (by simp) 1
    rw [exNiSet]
    refine ⟨_, hC 3 2, fun p hp => ?_⟩
    obtain ⟨a, b, rfl⟩ := exTwList p hp
    rw [exNiSet]
    refine ⟨_, hC a b, ?_⟩
    simp
    nlinarith [sq_nonneg ((5 - (a + b)) * 3), sq_nonneg ((2 - b) * 4)]
  · intro k hk
    have hk : k < 2 := hk
    rw [exNiThawed]
    interval_cases k <;> rfl
  · intro k hk
    interval_cases k
    · rw [effect, (exNiWidths _ _ _ _ _).1]
      norm_num [exNi, exNiIm, exNiD, exTwCol, sum_range_succ]
    · rw [effect, (exNiWidths _ _ _ _ _).2]
      norm_num [exNi, exNiIm, exNiD, exTwCol, sum_range_succ]
  · rintro p hp ⟨⟨L, h1, h2⟩, L', h3, h4⟩
    obtain ⟨a, b, rfl⟩ := exTwList p hp
    obtain ⟨C, hC⟩ := exNiLogProb [(0, 0, 1, 1)] [(3, 1 / 3)] [(2, 1 / 5)] (by simp) (by simp) 1
    obtain ⟨C', hC'⟩ := exNiLogProb ([(5, 2, 3, 4)] ++ [(0, 0, 1, 1)]) [] [] (by simp) (by simp) 1
    rw [exNiSet, hC] at h1
    rw [exNiSet, hC'] at h3
    injection h1 with h1
    injection h1 with h1
    injection h3 with h3
    injection h3 with h3
    obtain ⟨L1, g1, g2⟩ := h4 [9 / 2 - 32 / 17, 32 / 17] rfl
    rw [exNiSet, exNiSet, hC'] at g1
    injection g1 with g1
    injection g1 with g1
    obtain ⟨L2, k1, k2⟩ := h2 [5 / 2, 32 / 17] rfl
    rw [exNiSet, exNiSet, hC] at k1
    injection k1 with k1
    injection k1 with k1
    subst h1 h3 g1 k1
    simp only [List.cons_append, List.nil_append, List.map_cons, List.map_nil, List.sum_cons, List.sum_nil] at g2 k2
    have hu : 10 * (a + b - 9 / 2) ^ 2 + 17 * (b - 32 / 17) ^ 2 ≤ 0 := by nlinarith
    have hb : b = 32 / 17 := by nlinarith [sq_nonneg (a + b - 9 / 2), sq_nonneg (b - 32 / 17)]
    have ha : a = 9 / 2 - 32 / 17 := by subst hb; nlinarith [sq_nonneg (a + 32 / 17 - 9 / 2)]
    rw [ha, hb] at k2
    linarith

end Verif.Fit
