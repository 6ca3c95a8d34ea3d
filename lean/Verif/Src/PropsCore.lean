import Verif.Src.LemmasCore
import Verif.Src.PropsSersic
import Verif.Gal.PropsComposite

/-!
# C125: galaxies with a central point source
-/

namespace Verif.Src

open Verif Verif.Params

variable {R M K : Type} [Field R] [LinearOrder R] [AddCommGroup M] [Module R M]

/-- **C125 (derivatives, de Vaucouleurs).** `DevCoreGalaxy.getParamDerivatives` never raises, leaves the source as it was and returns one
entry for each thawed parameter, in their order: whether or not the parts are rendered, the position entries are the sums of those of the
galaxy and of the point source, then follow the galaxy's brightness and shape, then the brightness of the point source.  If both are
rendered, an entry after the position is the difference quotient of the sum of the two model images, and a position entry is the sum of
both derivatives. -/
theorem C125_dev (I : Image R) (Wg : GalaxyWorld R M K) (Wp : PointWorld R M K) (hr : MaskRenders Wg) (hs : MaskStable Wg)
    (mask : Option K) (s : DevCore R) (hW : ∀ mv, (Wp.withDerivs s.gal.pos mv mask).map (·.1) = Wp.unit s.gal.pos mv mask)
    (hpos : s.gal.pos.slots.length ≤ 2) (hps : s.gal.posLiquid = true → GoodSteps (.plist s.gal.pos))
    (hb : s.gal.brightLiquid = true → GoodSteps s.gal.bright) (hg : s.gal.shapeLiquid = true → GoodSteps s.gal.shape)
    (hq : s.psfLiquid = true → GoodSteps s.brightPsf) :
    ∃ a b ds, galaxyDerivs I Wg mask s.gal = (s.gal, .ok a) ∧
      (pointDerivs I Wp true mask ⟨s.gal.posLiquid, s.gal.pos, s.psfLiquid, s.brightPsf⟩).2 = .ok b ∧
      devCoreDerivs I Wg Wp mask s = (s, .ok ds) ∧ ds.length = numberOfParams s.tree ∧
      Merged (posCount s.gal.posLiquid s.gal.pos) a b ds ∧
      ∀ pg pp, Wg.unit s.gal.pos s.gal.shape (minvalOf I.minsb (I.counts s.gal.bright)) mask = some pg →
        Wp.unit s.gal.pos (minvalOf I.minsb (I.counts s.brightPsf)) mask = some pp → Wp.overlaps pp = true →
        ∀ (k : Nat) (d : Option M), ds[k]? = some d →
          (k < posCount s.gal.posLiquid s.gal.pos → ∃ u v, d.getD 0 = u + v ∧
            ChainRule (I.cdi s.gal.pos) s.gal.pos (I.counts s.gal.bright) (Wg.grad pg).1 (Wg.grad pg).2 k u ∧
            ∀ dx dy, Wp.withDerivs s.gal.pos (minvalOf I.minsb (I.counts s.brightPsf)) mask = some (pp, some (dx, dy)) →
              ChainRule (I.cdi s.gal.pos) s.gal.pos (I.counts s.brightPsf) dx dy k v) ∧
          (posCount s.gal.posLiquid s.gal.pos ≤ k → d.getD 0 =
            quotient (coreModel I Wg Wp (minvalOf I.minsb (I.counts s.gal.bright)) (minvalOf I.minsb (I.counts s.brightPsf))
              (mask.getD (Wg.extentMask pg)) mask) s.tree k) := by
  obtain ⟨P1, B, G, h1, hP1, hB, hG, hv1⟩ := galaxy_all I Wg hr hs mask s.gal hpos hb hg
  obtain ⟨b, h2, hlen2, hv2⟩ := point_ok I Wp true mask ⟨s.gal.posLiquid, s.gal.pos, s.psfLiquid, s.brightPsf⟩ hpos hps hq hW
  have hn2 := point_len (⟨s.gal.posLiquid, s.gal.pos, s.psfLiquid, s.brightPsf⟩ : PointSource R)
  simp only at hn2
  rw [hn2] at hlen2
  have ha : posCount s.gal.posLiquid s.gal.pos ≤ (P1 ++ B ++ G).length := by simp only [List.length_append]; omega
  obtain ⟨P, hj, hP, hPe⟩ := coreJoin_ok s.gal.posLiquid s.gal.pos hps (P1 ++ B ++ G) b ha (by omega)
  have hdrop : (P1 ++ B ++ G).drop (posCount s.gal.posLiquid s.gal.pos) = B ++ G := by
    rw [List.append_assoc, List.drop_left' hP1]
  refine ⟨P1 ++ B ++ G, b, P ++ (P1 ++ B ++ G).drop (posCount s.gal.posLiquid s.gal.pos) ++ b.drop (posCount s.gal.posLiquid s.gal.pos),
    h1, by rw [h2], ?_, ?_, merged_of _ _ _ _ ha (by omega) hP hPe, ?_⟩
  · simp only [devCoreDerivs, h1, h2, hj]
  · rw [hdrop, DevCore.tree, numberOfParams, posCount_eq]
    simp only [List.length_append, List.length_drop, hP, hB, hG, numberOfParamsSubs, hlen2]
    omega
  · intro pg pp hpg hpp hov k d hk
    obtain ⟨hm, hC1, hQB, hQG⟩ := hv1 pg hpg
    have hv2 := hv2 pp hpp hov
    have hQP := point_bright I Wp _ mask ⟨s.gal.posLiquid, s.gal.pos, s.psfLiquid, s.brightPsf⟩ hps hq pp hpp b
      (by rw [hn2]; exact hlen2) (fun k d hk hp => (hv2 k d hk).1 (.inl hp))
    simp only at hQP
    have hlenP : (b.drop (posCount s.gal.posLiquid s.gal.pos)).length = (if s.psfLiquid then numberOfParams s.brightPsf else 0) := by
      rw [List.length_drop]
      omega
    have hQ : Aligned (numberOfParamsSubs (.cons ["brightnessDev"] s.gal.brightLiquid s.gal.bright
        (.cons ["shapeDev"] s.gal.shapeLiquid s.gal.shape (.cons ["brightnessPsf"] s.psfLiquid s.brightPsf .nil))))
        (quotientSubs (fun r => coreModel I Wg Wp (minvalOf I.minsb (I.counts s.gal.bright)) (minvalOf I.minsb (I.counts s.brightPsf))
              (mask.getD (Wg.extentMask pg)) mask (.multi (.cons ["pos"] s.gal.posLiquid (.plist s.gal.pos) r)))
          (.cons ["brightnessDev"] s.gal.brightLiquid s.gal.bright
            (.cons ["shapeDev"] s.gal.shapeLiquid s.gal.shape (.cons ["brightnessPsf"] s.psfLiquid s.brightPsf .nil))))
        (B ++ (G ++ (b.drop (posCount s.gal.posLiquid s.gal.pos) ++ []))) := by
      apply aligned_cons _ _ _ _ _ _ _ _ (nil_of_len hB)
      · apply aligned_cons _ _ _ _ _ _ _ _ (nil_of_len hG)
        · apply aligned_cons _ _ _ _ _ _ _ _ (nil_of_len hlenP)
          · exact aligned_nil _
          · intro hl
            refine ⟨hq hl, aligned_congr (hQP hl) (fun k _ => ?_)⟩
            simp only [coreModel, hpp, Option.getD_some]
            rw [quotient_const_add]
        · intro hl
          refine ⟨hg hl, aligned_congr (hQG hl) (fun k _ => ?_)⟩
          simp only [coreModel]
          rw [quotient_add_const]
      · intro hl
        refine ⟨hb hl, aligned_congr (hQB hl) (fun k _ => ?_)⟩
        simp only [coreModel, hm, Option.getD_some]
        rw [quotient_add_const]
    rw [hdrop, List.append_assoc, List.append_assoc, ← List.append_nil (b.drop _)] at hk
    have := split_entries (ruleP := fun k m => ∃ u v, m = u + v ∧
        ChainRule (I.cdi s.gal.pos) s.gal.pos (I.counts s.gal.bright) (Wg.grad pg).1 (Wg.grad pg).2 k u ∧
        ∀ dx dy, Wp.withDerivs s.gal.pos (minvalOf I.minsb (I.counts s.brightPsf)) mask = some (pp, some (dx, dy)) →
          ChainRule (I.cdi s.gal.pos) s.gal.pos (I.counts s.brightPsf) dx dy k v)
      (fun k d hk => by
        obtain ⟨x, y, hx, hy, hd⟩ := hPe k d hk
        have hkn : k < posCount s.gal.posLiquid s.gal.pos := by
          rw [← hP]; exact (List.getElem?_eq_some_iff.1 hk).1
        rw [List.append_assoc, List.getElem?_append_left (by omega)] at hx
        exact ⟨x.getD 0, y.getD 0, by rw [hd, addPatches_getD], hC1 k x hx, (hv2 k y hy).2 hkn rfl⟩) hQ k d hk
    rw [hP] at this
    refine ⟨this.1, fun h => ?_⟩
    rw [this.2 h]
    have hk : k = posCount s.gal.posLiquid s.gal.pos + (k - posCount s.gal.posLiquid s.gal.pos) := by omega
    conv_rhs => rw [hk]
    rw [DevCore.tree, quotient_multi, quotient_after_pos _ _ _ _ _ hps]

/-- **C125 (derivatives, Sersic).** Whenever the Sersic part returns one entry per parameter (see C115), `SersicCoreGalaxy` does: sums for the
position, the others of the Sersic galaxy, its index last, then the brightness of the point source. -/
theorem C125_sersic_partial (I : Image R) (Wg : R → GalaxyWorld R M K) (Wp : PointWorld R M K) (mask : Option K) (s : SersicCore R)
    (hW : ∀ mv, (Wp.withDerivs s.ser.gal.pos mv mask).map (·.1) = Wp.unit s.ser.gal.pos mv mask)
    (hpos : s.ser.gal.pos.slots.length ≤ 2) (hps : s.ser.gal.posLiquid = true → GoodSteps (.plist s.ser.gal.pos))
    (hq : s.psfLiquid = true → GoodSteps s.brightPsf) (a : List (Option M)) (ha : sersicDerivs I Wg mask s.ser = (s.ser, .ok a))
    (hlen : a.length = numberOfParams s.ser.tree) :
    ∃ b ds, (pointDerivs I Wp true mask ⟨s.ser.gal.posLiquid, s.ser.gal.pos, s.psfLiquid, s.brightPsf⟩).2 = .ok b ∧
      serCoreDerivs I Wg Wp mask s = (s, .ok ds) ∧ ds.length = numberOfParams s.tree ∧
      Merged (posCount s.ser.gal.posLiquid s.ser.gal.pos) a b ds := by
  obtain ⟨b, h2, hlen2, _⟩ := point_ok I Wp true mask ⟨s.ser.gal.posLiquid, s.ser.gal.pos, s.psfLiquid, s.brightPsf⟩ hpos hps hq hW
  have hn2 := point_len (⟨s.ser.gal.posLiquid, s.ser.gal.pos, s.psfLiquid, s.brightPsf⟩ : PointSource R)
  simp only at hn2
  rw [hn2] at hlen2
  have hla := hlen
  rw [Sersic.tree, numberOfParams, posCount_eq] at hla
  obtain ⟨P, hj, hP, hPe⟩ := coreJoin_ok s.ser.gal.posLiquid s.ser.gal.pos hps a b (by omega) (by omega)
  refine ⟨b, P ++ a.drop (posCount s.ser.gal.posLiquid s.ser.gal.pos) ++ b.drop (posCount s.ser.gal.posLiquid s.ser.gal.pos),
    by rw [h2], ?_, ?_, merged_of _ _ _ _ (by omega) (by omega) hP hPe⟩
  · simp only [serCoreDerivs, ha, h2, hj]
  · rw [SersicCore.tree, numberOfParams, posCount_eq]
    simp only [numberOfParamsSubs] at hla ⊢
    simp only [List.length_append, List.length_drop, hP, hla, hlen2]
    omega

/-- **C125, negation (Sersic not rendered).** When the Sersic part is not rendered but the point source is (a galaxy of zero extent in the
mask, say), `SersicCoreGalaxy.getParamDerivatives` returns one entry too many, and the entries for the brightness of the point source are
one place too far: at the place of its first brightness is None, and the last is beyond the end. -/
theorem C125_sersic_false (I : Image R) (Wg : R → GalaxyWorld R M K) (Wp : PointWorld R M K) (mask : Option K) (s : SersicCore R)
    (hW : ∀ mv, (Wp.withDerivs s.ser.gal.pos mv mask).map (·.1) = Wp.unit s.ser.gal.pos mv mask)
    (hpos : s.ser.gal.pos.slots.length ≤ 2) (hps : s.ser.gal.posLiquid = true → GoodSteps (.plist s.ser.gal.pos))
    (hq : s.psfLiquid = true → GoodSteps s.brightPsf)
    (hp : (Wg s.ser.index.val).unit s.ser.gal.pos s.ser.gal.shape (minvalOf I.minsb (I.counts s.ser.gal.bright)) mask = none) :
    ∃ b ds, (pointDerivs I Wp true mask ⟨s.ser.gal.posLiquid, s.ser.gal.pos, s.psfLiquid, s.brightPsf⟩).2 = .ok b ∧
      serCoreDerivs I Wg Wp mask s = (s, .ok ds) ∧ ds.length = numberOfParams s.tree + 1 ∧
      ds[numberOfParams s.ser.tree]? = some none ∧
      ∀ k : Nat, posCount s.ser.gal.posLiquid s.ser.gal.pos ≤ k → k < b.length →
        ds[numberOfParams s.ser.tree + (k - posCount s.ser.gal.posLiquid s.ser.gal.pos) + 1]? = b[k]? := by
  have ha := C115_none_false I Wg mask s.ser hp
  obtain ⟨b, h2, hlen2, _⟩ := point_ok I Wp true mask ⟨s.ser.gal.posLiquid, s.ser.gal.pos, s.psfLiquid, s.brightPsf⟩ hpos hps hq hW
  have hn2 := point_len (⟨s.ser.gal.posLiquid, s.ser.gal.pos, s.psfLiquid, s.brightPsf⟩ : PointSource R)
  simp only at hn2
  rw [hn2] at hlen2
  have hla := Eq.refl (numberOfParams s.ser.tree)
  conv at hla => rhs; rw [Sersic.tree, numberOfParams, posCount_eq]
  obtain ⟨P, hj, hP, hPe⟩ := coreJoin_ok s.ser.gal.posLiquid s.ser.gal.pos hps
    (List.replicate (numberOfParams s.ser.tree + 1) (none : Option M)) b (by rw [List.length_replicate]; omega) (by omega)
  have hM := merged_of _ _ _ _ (by rw [List.length_replicate]; omega) (by omega) hP hPe
  refine ⟨b, P ++ (List.replicate (numberOfParams s.ser.tree + 1) none).drop (posCount s.ser.gal.posLiquid s.ser.gal.pos) ++
    b.drop (posCount s.ser.gal.posLiquid s.ser.gal.pos), by rw [h2], ?_, ?_, ?_, ?_⟩
  · simp only [serCoreDerivs, ha, h2, hj]
  · rw [SersicCore.tree, numberOfParams, posCount_eq]
    simp only [numberOfParamsSubs] at hla ⊢
    simp only [List.length_append, List.length_drop, List.length_replicate, hP, hla, hlen2]
    omega
  · rw [hM.2.2.1 _ (by omega) (by rw [List.length_replicate]; omega), List.getElem?_replicate, if_pos (by omega)]
  · intro k h3 h4
    rw [← hM.2.2.2 k h3 h4, List.length_replicate]
    congr 1
    omega

/-- A galaxy with all parameters thawed (one of the positions frozen), and a point source in it. -/
def exDevCore : DevCore Rat := ⟨⟨true, exPos false, true, exBright, true, exShape 4⟩, true, exBright⟩

def exSerCore (v : Rat) : SersicCore Rat := ⟨exSersic v, true, exBright⟩

/-- The sums of the positions (1920 = 120 + 1800), then brightness and shape, then brightness. -/
example : (devCoreDerivs exImage (exGal 2) exPoint none exDevCore).2 = .ok [some 1920, none, some 33, some 120, none, some 114] ∧
    numberOfParams exDevCore.tree = 6 := by
  constructor <;> decide +kernel

example : (serCoreDerivs exImage (exSer 100) exPoint none (exSerCore 2)).2 =
    .ok [some 1920, none, some 63, some 120, some 300, none, some 114] ∧ numberOfParams (exSerCore 2).tree = 7 := by
  constructor <;> decide +kernel

/-- With all parameters but one frozen there is one entry, whichever it is. -/
example : (devCoreDerivs exImage (exGal 2) exPoint none ⟨⟨false, exPos false, false, exBright, true, exShape 4⟩, false, exBright⟩).2 =
      .ok [some 120] ∧
    (devCoreDerivs exImage (exGal 2) exPoint none ⟨⟨true, exPos false, false, exBright, false, exShape 4⟩, false, exBright⟩).2 =
      .ok [some 1920] := by
  constructor <;> decide +kernel

/-- The Sersic galaxy is not rendered: 114 is at index 7, where there is no parameter. -/
example : (serCoreDerivs exImage (exSer 1) exPoint none (exSerCore 2)).2 =
    .ok [some 1800, none, none, none, none, none, none, some 114] := by decide +kernel

end Verif.Src

namespace Verif.Gal

open Verif.Patches (Patch)

variable {R B K : Type} [Field R] [LinearOrder R]

/-- **C125 (rendering).** For a galaxy with a central point source whose renderers do not depend on `minval`, the model image is, pixel by
pixel, the sum over `getBrightnesses()` of the counts times the patches of `getUnitFluxModelPatches()` in the same order, whatever the
limits given (also None). -/
theorem C125_forced (V : View R B) (s : CoreSource R B K) (minsb : Option R) (minval : R) (mask : K) (pg pp : Option (Patch R))
    (hg : ∀ v, s.gal s.halfsize v mask = .ok pg) (hp : ∀ v, s.psf v mask = .ok pp) (hig : HasImage pg) (hip : HasImage pp) :
    ∃ us r, s.unitPatches minval mask [] = .ok us ∧ s.modelPatch V minsb mask [] = .ok r ∧ us.length = s.brightnesses.length ∧
      ∀ x y, pixel r x y = (List.zipWith (fun b u => countsOf V b * pixel u x y) s.brightnesses us).sum := by
  obtain ⟨rg, h1, h2, h3⟩ := modelPatch_pixel V (s.gal s.halfsize) s.brightGal (halfLimit minsb) mask pg hig (hg _)
  obtain ⟨rp, h4, h5, h6⟩ := modelPatch_pixel V s.psf s.brightPsf (halfLimit minsb) mask pp hip (hp _)
  obtain ⟨r, h7, h8⟩ := addPatches_pixel rg rp h2 h5
  refine ⟨[pg, pp], r, ?_, ?_, rfl, fun x y => ?_⟩
  · simp only [CoreSource.unitPatches, hg, hp, ne_eq, not_true_eq_false, if_false]
  · simp only [CoreSource.modelPatch, h1, h4, ne_eq, not_true_eq_false, if_false, h7]
  · rw [h8, h3, h6]
    simp [CoreSource.brightnesses]

/-- **C125 (limit).** With a limit `minsb > 0` and positive counts, if each renderer's pixels are off by at most the limit it is given, the
model image is off by at most `minsb`: each part gets half of it.  With a limit for unit-flux patches, each is off by at most half of it. -/
theorem C125_limit_partial [IsStrictOrderedRing R] (V : View R B) (s : CoreSource R B K) (minsb minval : R) (mask : K)
    (hm : 0 < minsb) (hv : 0 < minval) (cg cp : R) (hcg : V.counts s.brightGal = .fin cg) (hcp : V.counts s.brightPsf = .fin cp) (hg0 : 0 < cg) (hp0 : 0 < cp)
    (hfg : V.finite32 cg = true) (hfp : V.finite32 cp = true) (ug up : Int → Int → R) (hg : Within (s.gal s.halfsize) mask ug)
    (hp : Within s.psf mask up) :
    (∃ r, s.modelPatch V (some minsb) mask [] = .ok r ∧ ∀ x y, |pixel r x y - (cg * ug x y + cp * up x y)| ≤ minsb) ∧
    ∃ p q, s.unitPatches minval mask [] = .ok [p, q] ∧
      ∀ x y, |pixel p x y - ug x y| ≤ minval / 2 ∧ |pixel q x y - up x y| ≤ minval / 2 := by
  have hcg' : countsOf V s.brightGal = cg := by simp [countsOf, hcg, hfg]
  have hcp' : countsOf V s.brightPsf = cp := by simp [countsOf, hcp, hfp]
  constructor
  · obtain ⟨pg, hpg, hig, hbg⟩ := hg (minsb / 2 / cg) (by positivity)
    obtain ⟨pp, hpp, hip, hbp⟩ := hp (minsb / 2 / cp) (by positivity)
    obtain ⟨rg, h1, h2, h3⟩ := modelPatch_pixel V (s.gal s.halfsize) s.brightGal (some (minsb / 2)) mask pg hig (by rw [hcg']; exact hpg)
    obtain ⟨rp, h4, h5, h6⟩ := modelPatch_pixel V s.psf s.brightPsf (some (minsb / 2)) mask pp hip (by rw [hcp']; exact hpp)
    obtain ⟨r, h7, h8⟩ := addPatches_pixel rg rp h2 h5
    refine ⟨r, ?_, fun x y => ?_⟩
    · simp only [CoreSource.modelPatch, halfLimit, if_neg hm.ne', h1, h4, ne_eq, not_true_eq_false, if_false, h7]
    · rw [h8, h3, h6, hcg', hcp']
      have e : cg * pixel pg x y + cp * pixel pp x y - (cg * ug x y + cp * up x y) =
          cg * (pixel pg x y - ug x y) + cp * (pixel pp x y - up x y) := by ring
      rw [e]
      refine (abs_add_le _ _).trans ?_
      rw [abs_mul, abs_mul, abs_of_pos hg0, abs_of_pos hp0]
      have e1 := mul_le_mul_of_nonneg_left (hbg x y) hg0.le
      have e2 := mul_le_mul_of_nonneg_left (hbp x y) hp0.le
      rw [mul_div_cancel₀ _ hg0.ne'] at e1
      rw [mul_div_cancel₀ _ hp0.ne'] at e2
      linarith
  · obtain ⟨pg, hpg, _, hbg⟩ := hg (minval / 2) (by positivity)
    obtain ⟨pp, hpp, _, hbp⟩ := hp (minval / 2) (by positivity)
    refine ⟨pg, pp, ?_, fun x y => ⟨hbg x y, hbp x y⟩⟩
    have e : minval * (1 / 2) = minval / 2 := by ring
    simp only [CoreSource.unitPatches, if_pos hv, e, hpg, hpp, ne_eq, not_true_eq_false, if_false]

/-- **C125, negation (keyword arguments).** Unlike all other sources, these do not accept further keyword arguments: with a `Tractor` that
has `model_kwargs` every rendering raises. -/
theorem C125_kwargs_false (V : View R B) (s : CoreSource R B K) (minsb : Option R) (minval : R) (mask : K) (kw : List String) (hk : kw ≠ []) :
    s.modelPatch V minsb mask kw = .error .typeErr ∧ s.unitPatches minval mask kw = .error .typeErr := by
  simp only [CoreSource.modelPatch, CoreSource.unitPatches, if_pos hk, and_self]

/-- Two renderers: one of two pixels, one of a pixel that lacks `minval`. -/
def exCore : CoreSource ℚ ℚ Unit :=
  ⟨10, 100, fun h _ _ => .ok (stamp 3 (if h = none then [1, 2] else [1])), fun v _ => .ok (stamp 4 [5 - v]), none⟩

example : rows (exCore.modelPatch exView (some 2) () []) = .ok (some (3, [[10, 519]])) ∧
    rows ({ exCore with halfsize := some 7 }.modelPatch exView (some 2) () []) = .ok (some (3, [[10, 499]])) ∧
    exCore.brightnesses = [10, 100] := by refine ⟨?_, ?_, ?_⟩ <;> decide +kernel

/-- Counts 10 and 100 times the unit patches, with and without limit. -/
example : let s : CoreSource ℚ ℚ Unit := { exCore with psf := fun _ _ => .ok (stamp 4 [5]) }
    rows (s.modelPatch exView none () []) = .ok (some (3, [[10, 520]])) ∧
    rows (s.modelPatch exView (some 2) () []) = .ok (some (3, [[10, 520]])) ∧
    (s.unitPatches 1 () []).map (fun us => us.map (fun p => p.bind (fun p => p.patch.map (fun A => (p.x0, A.toLists))))) =
      .ok [some (3, [[1, 2]]), some (4, [[5]])] := by refine ⟨?_, ?_, ?_⟩ <;> decide +kernel

/-- **C125, negation (default limit).** Without a limit (`minsb` 0, the default of the function, or None, what `Tractor` passes) each part is
rendered with the whole `modelMinval` of the image, and the model image can be off by twice that: here by 2 with a `modelMinval` of 1. -/
theorem C125_limit_false :
    let s : CoreSource ℚ ℚ Unit := ⟨10, 100, fun _ v _ => .ok (stamp 4 [2 - v]), fun v _ => .ok (stamp 4 [5 - v]), none⟩
    Within (s.gal none) () (fun x y => if x = 4 ∧ y = 0 then 2 else 0) ∧ Within s.psf () (fun x y => if x = 4 ∧ y = 0 then 5 else 0) ∧
    exView.modelMinval = 1 ∧
    rows (s.modelPatch exView none () []) = .ok (some (4, [[10 * 2 + 100 * 5 - 2]])) ∧
    rows (s.modelPatch exView (some 0) () []) = .ok (some (4, [[10 * 2 + 100 * 5 - 2]])) ∧
    rows (s.modelPatch exView (some 1) () []) = .ok (some (4, [[10 * 2 + 100 * 5 - 1]])) := by
  have key : ∀ a : ℚ, ∀ v > 0, ∃ p, (Except.ok (stamp 4 [a - v]) : Except PyErr (Option (Patch ℚ))) = .ok p ∧ HasImage p ∧
      ∀ x y, |pixel p x y - (if x = 4 ∧ y = 0 then a else 0)| ≤ v := by
    intro a v hv
    refine ⟨_, rfl, ?_, fun x y => ?_⟩
    · rintro q ⟨⟩
      exact ⟨_, rfl⟩
    · have hat : pixel (stamp 4 [a - v]) x y = if 4 ≤ x ∧ x < 4 + 1 ∧ 0 ≤ y ∧ y < 0 + 1 then a - v else 0 := by
        by_cases h : 4 ≤ x ∧ x < 4 + 1 ∧ 0 ≤ y ∧ y < 0 + 1
        · obtain rfl : x = 4 := by omega
          obtain rfl : y = 0 := by omega
          rfl
        · rw [if_neg h]
          simp only [pixel, stamp, Patch.at]
          exact if_neg h
      rw [hat]
      by_cases h : x = 4 ∧ y = 0
      · rw [if_pos h, if_pos (by omega)]
        simp [abs_of_pos hv]
      · rw [if_neg h, if_neg (by omega)]
        simp [hv.le]
  refine ⟨fun v hv => key 2 v hv, fun v hv => key 5 v hv, rfl, ?_, ?_, ?_⟩ <;> decide +kernel

end Verif.Gal
