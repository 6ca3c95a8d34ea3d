import Verif.Params.Lemmas6

/-!
# Properties C01–C17: parameter objects

Vocabulary: `Verif/Params/Spec.lean` and `Verif/Params/PriorSpec.lean`.
-/

namespace Verif.Params

open Verif

variable {α : Type}

/-! A concrete nested object used in the examples: a "source" with a position list (second
coordinate frozen), a missing shape, a frozen scalar, and a brightness list. -/

/-- Position list with `y` frozen, a prior on each coordinate and complete bounds. -/
def exPos : PList Rat where
  slots := [⟨["x"], true, 3⟩, ⟨["y", "why"], false, 4⟩]
  lowers := [some 0, none]
  uppers := [some 10, some 20]
  maxstep := [none, none]
  steps := some [1, 2]
  priors := [(1, 5, 2), (0, 1, 4)]

/-- Fluxes, all thawed, with one prior. -/
def exFlux : PList Rat where
  slots := [⟨["r"], true, 7⟩, ⟨["g"], true, 8⟩]
  lowers := [none, none]
  uppers := [none, none]
  maxstep := [none, none]
  steps := none
  priors := [(1, 6, 3)]

/-- The nested object. -/
def exTree : Par Rat :=
  .multi (.cons ["pos"] true (.plist exPos)
    (.missing ["shape"] true
      (.cons ["sky"] false (.scalar ⟨"Sky", 100, none, none, none, 1, none⟩)
        (.cons ["bright"] true (.multi (.cons ["inner"] true (.plist exFlux) .nil)) .nil))))

/-- The same without the missing entry. -/
def exTreeFull : Par Rat :=
  .multi (.cons ["pos"] true (.plist exPos)
      (.cons ["sky"] false (.scalar ⟨"Sky", 100, none, none, none, 1, none⟩)
        (.cons ["bright"] true (.multi (.cons ["inner"] true (.plist exFlux) .nil)) .nil)))

/-! ## C01 -/

/-- **C01.** `setParams(v)` with the right number of values does not raise, and `getParams()`
afterwards returns exactly `v`. -/
theorem C01_set_get (t : Par α) (v : List α) (h : v.length = numberOfParams t) :
    (setParams t v).2 = none ∧ getParams (setParams t v).1 = v :=
  setParams_get t v h

example : numberOfParams exTree = 3 ∧ getParams exTree = [3, 7, 8] ∧
    getParams (setParams exTree [30, 70, 80]).1 = [30, 70, 80] := by decide +kernel

/-! ## C02 -/

/-- **C02.** Neither `setParams(v)` nor `setParam(i, x)`, with any arguments whatsoever (also ones
that make them raise half-way), changes a frozen parameter, a flag, or anything but values. -/
theorem C02_frozen_untouched (t : Par α) (v : List α) (i : Int) (x : α) :
    (FrozenUnchanged t (setParams t v).1 ∧ SameButValues t (setParams t v).1) ∧
    (FrozenUnchanged t (setParam t i x).1 ∧ SameButValues t (setParam t i x).1) := by
  refine ⟨⟨?_, fun c => setParams_blank c t v⟩, ⟨?_, fun c => setParam_blank c t i x⟩⟩
  · exact ⟨(setParams_rel t v).length, (setParams_rel t v).get⟩
  · exact ⟨(setParam_rel t i x).length, (setParam_rel t i x).get⟩

example : leaves exTree = [(true, 3), (false, 4), (false, 100), (true, 7), (true, 8)] ∧
    leaves (setParams exTree [30, 70, 80]).1 =
      [(true, 30), (false, 4), (false, 100), (true, 70), (true, 80)] := by decide +kernel

/-! ## C03 -/

/-- **C03.** Writing back the current parameter vector changes nothing. -/
theorem C03_set_current (t : Par α) : setParams t (getParams t) = (t, none) := setParams_id t

example : getParams exTree ≠ [] ∧ setParams exTree (getParams exTree) = (exTree, none) := by
  decide +kernel

/-! ## C04 -/

/-- **C04 (partial).** For objects whose lists have complete bound lists, every per-parameter vector
is, entry by entry, what belongs to the thawed parameter at that position; in particular all have
length `numberOfParams()`.  Names agree in number always.
Missing: `NpArrayParams` and `MogParams` have incomplete bound lists, for which the claim is false
(`C04_array_bounds_false`). -/
theorem C04_vectors_aligned_partial [One α] (t : Par α) (h : BoundsComplete t) :
    (getParams t = (thawedInfos t).map (·.val) ∧
     getLowerBounds t = (thawedInfos t).map (·.lower) ∧
     getUpperBounds t = (thawedInfos t).map (·.upper) ∧
     getMaxStep t = (thawedInfos t).map (·.maxstep) ∧
     getStepSizes t = (thawedInfos t).map (·.step)) ∧
    (thawedInfos t).length = numberOfParams t ∧
    (getParamNames t).length = numberOfParams t := by
  have hv := vectors_eq t h
  refine ⟨hv, ?_, getParamNames_length t⟩
  rw [← getParams_length, hv.1]
  simp [thawedInfos]

example : BoundsComplete exTree := by
  simp [exTree, exPos, exFlux, BoundsComplete, BoundsCompleteSubs]
example : getLowerBounds exTree = [some 0, none, none] ∧
    getUpperBounds exTree = [some 10, none, none] ∧ getStepSizes exTree = [1, 1, 1] ∧
    getParamNames exTree = ["pos.x", "bright.inner.r", "bright.inner.g"] := by decide +kernel

/-- Every freshly constructed `ParamList` has complete bounds. -/
theorem mkPList_boundsComplete (nv : List (List String × α)) : BoundsComplete (.plist (mkPList nv)) := by
  simp [BoundsComplete, mkPList]

/-- **C04 (negation).** For every non-empty array-backed list (`NpArrayParams`, `MogParams`) the
bound vectors are empty although there are parameters; in a container the bounds of a *later*
sub-object are then paired with the array's parameters. -/
theorem C04_array_bounds_false (nv : List (List String × α)) (h : nv ≠ []) :
    numberOfParams (.plist (mkArrayList nv)) = nv.length ∧ 0 < nv.length ∧
    getLowerBounds (.plist (mkArrayList nv)) = [] ∧ getUpperBounds (.plist (mkArrayList nv)) = [] ∧
    getMaxStep (.plist (mkArrayList nv)) = [] := by
  have hl : ∀ fs : List Bool, liquidArray fs ([] : List (Option α)) = [] := by
    intro fs; cases fs with
    | nil => rfl
    | cons b fs => cases b <;> rfl
  refine ⟨?_, List.length_pos_iff.mpr h, ?_, ?_, ?_⟩
  · rw [numberOfParams, countLiquid_all]
    · simp [flags, mkArrayList, mkPList]
    · simp [flags, mkArrayList, mkPList]
  all_goals simp [getLowerBounds, getUpperBounds, getMaxStep, mkArrayList, hl]

/-- The pairing error is real: the array parameter 5 gets the lower bound 0 of the flux 9. -/
example :
    let t : Par Int := .multi (.cons ["psf"] true (.plist (mkArrayList [(["a"], 5)]))
      (.cons ["flux"] true (.plist { mkPList [(["r"], 9)] with lowers := [some 0] }) .nil))
    getParams t = [5, 9] ∧ getLowerBounds t = [some 0] := by decide

/-! ## C05 -/

/-- **C05.** `setParam(i, v)` for a valid index returns the old value, replaces exactly slot `i` of
`getParams()`, and `setParam(i, old)` afterwards restores the original object. -/
theorem C05_setParam (t : Par α) (i : Nat) (v : α) (h : i < numberOfParams t) :
    ∃ old, (getParams t)[i]? = some old ∧ (setParam t i v).2 = .ok old ∧
      getParams (setParam t i v).1 = (getParams t).set i v ∧
      setParam (setParam t i v).1 i old = (t, .ok v) :=
  setParam_ok t i v h

/-- **C05 (bad index).** A negative or too large index raises and changes nothing. -/
theorem C05_setParam_bad_index (t : Par α) (i : Int) (v : α)
    (h : i < 0 ∨ (numberOfParams t : Int) ≤ i) :
    (setParam t i v).1 = t ∧ ∃ e, (setParam t i v).2 = .error e :=
  setParam_err t i v h

example : (setParam exTree 1 70).2 = .ok 7 ∧ getParams (setParam exTree 1 70).1 = [3, 70, 8] ∧
    (setParam exTree 3 70).2 = .error .runtime ∧ (setParam exTree (-1) 70).2 = .error .index := by
  decide +kernel

/-! ## C06 -/

/-- **C06.** `getAllParams()` lists every parameter whatever is frozen; `setAllParams(v)` of the full
length does not raise, is read back by `getAllParams()`, and changes nothing but values;
`getParams()` is the sub-vector at the thawed positions. -/
theorem C06_all_params (t : Par α) :
    getAllParams t = allValues t ∧
    (∀ t' : Par α, (∃ b, withFlags b t' = withFlags b t) → getAllParams t' = getAllParams t) ∧
    (∀ v : List α, v.length = (allValues t).length →
      (setAllParams t v).2 = none ∧ getAllParams (setAllParams t v).1 = v ∧
      SameButValues t (setAllParams t v).1) ∧
    getParams t = thawedValues t := by
  have hall : getAllParams t = allValues t := getAllParams_eq true t
  refine ⟨hall, ?_, ?_, getParams_eq t⟩
  · rintro t' ⟨b, hb⟩
    rw [← getAllParams_withFlags b t', hb, getAllParams_withFlags]
  · intro v hv
    have := setAllParams_ok t v (by rw [hall]; exact hv)
    exact ⟨this.1, this.2, fun c => setAllParams_blank c t v⟩

example : getAllParams exTree = [3, 4, 100, 7, 8] ∧
    getAllParams (setAllParams exTree [1, 2, 3, 4, 5]).1 = [1, 2, 3, 4, 5] ∧
    getParams (setAllParams exTree [1, 2, 3, 4, 5]).1 = [1, 4, 5] := by decide +kernel

/-! ## C07 -/

/-- **C07 (one entry).** On a container or list, `freezeParam(k)` (`b = false`) or `thawParam(k)`
(`b = true`) of an existing entry sets exactly that entry's flag and changes nothing else; the
parameter vector consists of the blocks of the thawed entries in order, so it loses (regains)
exactly the block of entry `k`.  A non-existing entry raises. -/
theorem C07_freeze_entry (b : Bool) (k : Nat) (t : Par α) (hs : ∀ s, t ≠ .scalar s) :
    (k < (entries t).length → ∃ t', setFlag b k t = .ok t' ∧
      entries t' = (entries t).modify k (fun e => (e.1, b, e.2.2)) ∧
      (∀ c, withFlags c t' = withFlags c t) ∧
      getParams t' = ((entries t').map (fun e => if e.2.1 then e.2.2 else [])).flatten) ∧
    ((entries t).length ≤ k → setFlag b k t = .error .index) := by
  obtain ⟨h1, h2⟩ := setFlag_entries b k t hs
  refine ⟨fun hk => ?_, h2⟩
  obtain ⟨t', ht, hns, he⟩ := h1 hk
  exact ⟨t', ht, he, fun c => setFlag_withFlags b c k t t' ht, getParams_assemble t' hns⟩

/-- **C07 (undo, idempotence).** If entry `k` was thawed, thawing it after freezing restores the
original object; freezing twice is freezing once. -/
theorem C07_freeze_thaw (k : Nat) (t t' : Par α) (h : setFlag false k t = .ok t') :
    (((entries t)[k]?).map (·.2.1) = some true → setFlag true k t' = .ok t) ∧
    setFlag false k t' = .ok t' := by
  refine ⟨fun hk => ?_, ?_⟩
  · rw [setFlag_twice false true k t t' h]; exact setFlag_same true k t hk
  · rw [setFlag_twice false false k t t' h]; exact h

/-- **C07 (sequences).** After any sequence of `freezeParam`/`thawParam` calls the flag of an entry is
the one set by the last call naming it, or the original one if none did. -/
theorem C07_sequences (ops : List (Bool × Nat)) (t : Par α) (hs : ∀ s, t ≠ .scalar s)
    (h : ∀ op ∈ ops, op.2 < (entries t).length) :
    ∃ t', runFlags ops t = .ok t' ∧ (entries t').length = (entries t).length ∧
      ∀ (j : Nat) (e : List String × Bool × List α), (entries t)[j]? = some e →
        (entries t')[j]? = some (e.1,
          match (ops.filter (fun op => op.2 = j)).getLast? with
          | some op => op.1
          | none => e.2.1, e.2.2) :=
  runFlags_entries ops t hs h

/-- **C07 (freezeAllBut).** `freezeAllBut(names)` leaves thawed exactly the entries having one of the
names, and changes nothing but flags; it raises if a name is unknown. -/
theorem C07_freezeAllBut (ns : List String) (t : Par α) (hs : ∀ s, t ≠ .scalar s)
    (hu : NamesUnique (entries t)) :
    ((∀ n ∈ ns, ∃ e ∈ entries t, n ∈ e.1) → ∃ t', freezeAllBut ns t = .ok t' ∧
      entries t' = (entries t).map (fun e => (e.1, ns.any (fun n => decide (n ∈ e.1)), e.2.2)) ∧
      ∀ c, withFlags c t' = withFlags c t) ∧
    ((∃ n ∈ ns, ∀ e ∈ entries t, n ∉ e.1) → freezeAllBut ns t = .error .assertion) := by
  obtain ⟨t0, h0, hs0, he0⟩ := setAllFlags_entries false t hs
  have hnames : (entries t0).map (·.1) = (entries t).map (·.1) := by
    rw [he0, List.map_map]; rfl
  have hmem : ∀ m : String, (∃ e ∈ entries t0, m ∈ e.1) ↔ (∃ e ∈ entries t, m ∈ e.1) := by
    intro m
    have h1 : ∀ es : List (List String × Bool × List α),
        (∃ e ∈ es, m ∈ e.1) ↔ (∃ x ∈ es.map (·.1), m ∈ x) := by
      intro es; simp
    rw [h1, h1, hnames]
  obtain ⟨g1, g2⟩ := thawParams_entries ns t0 hs0 (namesUnique_congr hnames hu)
  constructor
  · intro hall
    obtain ⟨t', ht, he⟩ := g1 (fun n hn => (hmem n).2 (hall n hn))
    refine ⟨t', by simp [freezeAllBut, h0, Except.bind, ht], ?_, ?_⟩
    · rw [he, he0, List.map_map]
      apply List.map_congr_left
      intro e _
      simp
    · intro c
      rw [thawParams_withFlags c ns t0 t' ht, setAllFlags_withFlags false c t t0 h0]
  · rintro ⟨n, hn, hno⟩
    simp only [freezeAllBut, h0, Except.bind]
    apply g2
    refine ⟨n, hn, ?_⟩
    intro e he hne
    obtain ⟨f, hf, hfn⟩ := (hmem n).1 ⟨e, he, hne⟩
    exact hno f hf hfn

example : entries exTree = [(["pos"], true, [3]), (["shape"], true, []), (["sky"], false, [100]),
    (["bright"], true, [7, 8])] ∧
    (setFlag false 0 exTree).map getParams = .ok [7, 8] ∧
    (setFlag true 2 exTree).map getParams = .ok [3, 100, 7, 8] ∧
    (freezeAllBut ["sky"] exTree).map getParams = .ok [100] ∧
    (freezeAllBut ["nope"] exTree).map getParams = .error .assertion := by decide +kernel

/-! ## C08 -/

/-- **C08.** `freezeParamsRecursive('*')` leaves no parameters, `thawParamsRecursive('*')` exposes all
of them; both change nothing but flags. -/
theorem C08_recursive_all (t : Par α) :
    ((∀ s, t ≠ .scalar s) → numberOfParams (setFlagsRecursive false ["*"] t) = 0 ∧
      getParams (setFlagsRecursive false ["*"] t) = []) ∧
    getParams (setFlagsRecursive true ["*"] t) = allValues t ∧
    (∀ b, allValues (setFlagsRecursive b ["*"] t) = allValues t ∧
      ∀ c, withFlags c (setFlagsRecursive b ["*"] t) = withFlags c t) := by
  have hw : ∀ b c : Bool, withFlags c (withFlags b t) = withFlags c t := by
    intro b c
    have hsub : ∀ u : Subs α, withFlagsSubs c (withFlagsSubs b u) = withFlagsSubs c u := by
      intro u
      induction u using Subs.rec
        (motive_1 := fun u => withFlags c (withFlags b u) = withFlags c u) with
      | scalar s => rfl
      | plist l => simp [withFlags]
      | multi s ih => simp [withFlags, ih]
      | nil => rfl
      | cons nm l s rest ih1 ih2 => simp [withFlagsSubs, ih1, ih2]
      | missing nm l rest ih => simp [withFlagsSubs, ih]
    cases t with
    | scalar s => rfl
    | plist l => simp [withFlags]
    | multi s => simp [withFlags, hsub]
  refine ⟨fun hs => ?_, ?_, fun b => ?_⟩
  · rw [setFlagsRecursive_star]
    have h0 := numberOfParams_withFlags_false t hs
    refine ⟨h0, ?_⟩
    rw [← List.length_eq_zero_iff, getParams_length, h0]
  · rw [setFlagsRecursive_star, getParams_withFlags_true, getAllParams_eq true t]; rfl
  · rw [setFlagsRecursive_star]
    refine ⟨?_, hw b⟩
    have h1 : allValues (withFlags b t) = getAllParams (withFlags b t) :=
      (getAllParams_eq true _).symm
    rw [h1, getAllParams_withFlags, getAllParams_eq true t]; rfl

example : getParams (setFlagsRecursive false ["*"] exTree) = [] ∧
    getParams (setFlagsRecursive true ["*"] exTree) = [3, 4, 100, 7, 8] := by decide +kernel

/-! ## C09 -/

/-- **C09.** After `thawPathsTo(names)` an entry anywhere in the object is thawed if and only if it was
thawed before, has a listed name, or contains (at any depth) an entry with a listed name; no entry
appears or disappears, nothing but flags changes, and the call returns True iff some listed name
occurs.  (Containers recognise an entry by its primary name, lists by any of its names.) -/
theorem C09_thawPathsTo (ns : List String) (t : Par α) :
    (∀ i p, (∀ x, nodeAt t i p = some x →
        ∃ y, nodeAt (thawPathsTo ns t).1 i p = some y ∧ y.names = x.names ∧
          (y.liquid = true ↔ x.liquid = true ∨ Listed ns x.names ∨
            ∃ s, x.sub = some s ∧ Mentions ns s)) ∧
      (nodeAt t i p = none → nodeAt (thawPathsTo ns t).1 i p = none)) ∧
    ((thawPathsTo ns t).2 = true ↔ Mentions ns t) ∧
    (∀ c, withFlags c (thawPathsTo ns t).1 = withFlags c t) :=
  ⟨fun i p => thawPathsTo_nodeAt ns t i p, thawPathsTo_ret ns t,
    fun c => thawPathsTo_withFlags ns c t⟩

example :
    let t := setFlagsRecursive false ["*"] exTree
    getParams t = [] ∧ getParams (thawPathsTo ["g"] t).1 = [8] ∧
    (thawPathsTo ["g"] t).2 = true ∧ (thawPathsTo ["zzz"] t).2 = false ∧
    getParams (thawPathsTo ["why"] t).1 = [4] := by decide +kernel

/-! ## C10 -/

/-- **C10.** `getLiquidIndexOfIndex(j)` is -1 exactly for frozen `j`; for thawed `j` it is the position
of entry `j` in the thawed sequence: `getParams()` has value `j` there, `_indexLiquid` and
`getThawedParamIndices()` map it back to `j`, and `setParam` there changes exactly value `j`. -/
theorem C10_index_maps (l : PList α) (j : Nat) (s : Slot α) (hj : l.slots[j]? = some s) :
    (s.liquid = false → liquidIndexOfIndex (flags l) j = .ok (-1)) ∧
    (s.liquid = true → ∃ i : Nat, liquidIndexOfIndex (flags l) j = .ok (i : Int) ∧
      i < numberOfParams (.plist l) ∧
      (getParams (.plist l))[i]? = some s.val ∧
      indexLiquid (flags l) i = .ok j ∧
      (thawedIndices 0 (flags l))[i]? = some j ∧
      ∀ v, setParam (.plist l) i v =
        (.plist { l with slots := l.slots.set j { s with val := v } }, .ok s.val)) := by
  have hf : (flags l)[j]? = some s.liquid := by simp [flags, List.getElem?_map, hj]
  constructor
  · intro h
    rw [h] at hf
    simp [liquidIndexOfIndex, hf]
  · intro h
    rw [h] at hf
    refine ⟨countLiquid ((flags l).take j), by simp [liquidIndexOfIndex, hf],
      countLiquid_take_lt _ _ hf, ?_, indexLiquid_rank _ _ hf, ?_, ?_⟩
    · rw [getParams, liquidArray_get (flags l) (vals l) (by simp [flags, vals]) j hf]
      simp [vals, List.getElem?_map, hj]
    · simpa using thawedIndices_get (flags l) 0 j hf
    · intro v
      simp only [setParam, indexLiquid_rank _ _ hf, hj]

/-- **C10 (thawed index list).** `getThawedParamIndices()` lists exactly the thawed raw indices. -/
theorem C10_thawed_indices (fs : List Bool) (j : Nat) :
    j ∈ thawedIndices 0 fs ↔ fs[j]? = some true := by
  simpa using thawedIndices_mem fs 0 j

example : liquidIndexOfIndex [false, true, false, true] 3 = .ok 1 ∧
    liquidIndexOfIndex [false, true, false, true] 2 = .ok (-1) ∧
    thawedIndices 0 [false, true, false, true] = [1, 3] ∧
    liquidIndexOfIndex [true] 5 = .error .index := by decide

/-! ## C11 -/

/-- **C11.** Whatever sequence of append / prepend / extend / remove / freezeParam / thawParam calls is
made on a container (calls that raise included), there are as many flags as sub-objects, and the
(sub-object, flag) pairs are those obtained by adding thawed pairs, deleting the first pair with the
removed object, and switching single flags. -/
theorem C11_edits {β : Type} [DecidableEq β] (c : Cont β) (h : c.liquid.length = c.subs.length)
    (es : List (Edit β)) :
    (c.run es).liquid.length = (c.run es).subs.length ∧
    (c.run es).pairs = es.foldl specEdit c.pairs := by
  induction es generalizing c with
  | nil => exact ⟨h, rfl⟩
  | cons e es ih =>
    obtain ⟨h1, h2⟩ := edit_refines c h e
    obtain ⟨h3, h4⟩ := ih (c.edit e).1 h1
    exact ⟨h3, by rw [List.foldl_cons, ← h2]; exact h4⟩

/-- **C11 (survivors).** Adding and removing objects never changes the flag of another object: with
distinct objects, an object that is neither added nor removed keeps its flag. -/
theorem C11_survivors {β : Type} [DecidableEq β] (c : Cont β)
    (h : c.liquid.length = c.subs.length) (x y : β) (b : Bool) (hxy : y ≠ x)
    (hy : (y, b) ∈ c.pairs) :
    (y, b) ∈ (c.edit (.append x)).1.pairs ∧ (y, b) ∈ (c.edit (.prepend x)).1.pairs ∧
    (y, b) ∈ (c.edit (.remove x)).1.pairs ∧ (∀ xs, (y, b) ∈ (c.edit (.extend xs)).1.pairs) := by
  refine ⟨?_, ?_, ?_, fun xs => ?_⟩
  · rw [(edit_refines c h _).2]; simp [specEdit, hy]
  · rw [(edit_refines c h _).2]; simp [specEdit, hy]
  · rw [(edit_refines c h _).2, specEdit, List.mem_eraseP_of_neg (by simpa using hxy)]; exact hy
  · rw [(edit_refines c h _).2]; simp [specEdit, hy]

example :
    let c : Cont Nat := ⟨[10, 20, 30], [true, false, true]⟩
    (c.run [.remove 10, .prepend 5, .append 40, .freeze 3, .remove 99]).pairs =
      [(5, true), (20, false), (30, true), (40, false)] := by decide

/-! ## C12 -/

/-- **C12 (partial).** `copy()` of an object without missing sub-objects succeeds and has the same
values, the same effective frozen/thawed state, and the same entries with their own flags; with a
missing sub-object it raises.
Missing: attributes besides values and flags are not all copied — bounds are lost
(`C12_copy_bounds_false`), and for calibration objects see `C12_psf_copy_false` in
`Verif/Psf/Props.lean`. -/
theorem C12_copy_partial (t : Par α) :
    (NoMissing t → ∃ t', copy t = .ok t' ∧ leaves t' = leaves t ∧ entries t' = entries t) ∧
    (¬ NoMissing t → copy t = .error .attribute) := by
  refine ⟨fun h => ?_, copy_err t⟩
  obtain ⟨t', h1, h2⟩ := copy_ok t h
  exact ⟨t', h1, h2 true, copy_entries t t' h1⟩

example : NoMissing exTreeFull ∧ ¬ NoMissing exTree := by
  constructor <;> simp [exTree, exTreeFull, NoMissing, NoMissingSubs]
example : (copy exTreeFull).map leaves = .ok (leaves exTreeFull) ∧
    (copy exTree).map leaves = .error .attribute := by decide +kernel

/-- **C12 (negation).** Bounds, priors and step sizes set on the instance do not survive a copy. -/
theorem C12_copy_bounds_false :
    ∃ t t' : Par Rat, copy t = .ok t' ∧ getLowerBounds t = [some 0, none, none] ∧
      getLowerBounds t' = [none, none, none] ∧
      getGaussianPriors t ≠ [] ∧ getGaussianPriors t' = [] := by
  refine ⟨exTreeFull, _, rfl, ?_⟩
  decide +kernel

/-! ## C13 -/

/-- **C13 (partial).** On a parameter list, `setStepSizes(ss)` with one step per thawed parameter is
read back by `getStepSizes()` — the first time always, and later whenever the thawed parameters come
before the frozen ones (in particular when nothing is frozen).
Missing: a later call with a thawed parameter behind a frozen one (`C13_second_call_false`). -/
theorem C13_steps_partial [One α] (l : PList α) (ss : List α)
    (h : ss.length = numberOfParams (.plist l))
    (hst : l.steps = none ∨ ((∀ st, l.steps = some st → st.length = l.slots.length) ∧
      ∃ n m, flags l = List.replicate n true ++ List.replicate m false)) :
    (setStepSizes (.plist l) ss).2 = none ∧ getStepSizes (setStepSizes (.plist l) ss).1 = ss := by
  simp only [numberOfParams] at h
  cases hs : l.steps with
  | none =>
    obtain ⟨st, h1, h2, h3⟩ := freshSteps_ok (flags l) ss h
    simp only [setStepSizes, setStepSizesList, hs, h1, getStepSizes, allSteps, true_and]
    exact h3
  | some st =>
    rcases hst with hst | ⟨hlen, n, m, hfl⟩
    · rw [hs] at hst; cases hst
    · have hst' : st.length = (flags l).length := by rw [hlen st hs]; simp [flags]
      have hn : countLiquid (flags l) = n := by rw [hfl]; simp [countLiquid]
      obtain ⟨st', h1, h2, h3⟩ := overwriteSteps_prefix ss 0 (flags l) st n m hfl hst'
        (by omega)
      simp only [setStepSizes, setStepSizesList, hs, h1, getStepSizes, allSteps, true_and]
      have h4 : liquidArray (flags l) st' = ss := by simpa using h3
      exact h4

example : getStepSizes (setStepSizes (.plist exFlux) [5, 6]).1 = [5, 6] ∧
    getStepSizes (setStepSizes (setStepSizes (.plist exFlux) [5, 6]).1 [7, 8]).1 = [7, 8] := by
  decide +kernel

/-- **C13 (negation).** With a frozen parameter in front, the second call raises IndexError although
the number of steps is right; with two thawed parameters behind it, steps go to the wrong
parameters. -/
theorem C13_second_call_false :
    (∃ (l : PList Int) (ss : List Int), ss.length = numberOfParams (.plist l) ∧
      (setStepSizes (.plist l) ss).2 = none ∧
      (setStepSizes (setStepSizes (.plist l) ss).1 ss).2 = some .index) ∧
    (∃ (l : PList Int) (ss ss' : List Int), ss.length = numberOfParams (.plist l) ∧
      (setStepSizes (.plist l) ss).2 = none ∧ ss'.length = ss.length ∧
      getStepSizes (setStepSizes (setStepSizes (.plist l) ss).1 ss').1 ≠ ss') := by
  refine ⟨⟨⟨[⟨["a"], false, 0⟩, ⟨["b"], true, 0⟩], [], [], [], none, []⟩, [3], ?_⟩,
    ⟨⟨[⟨["a"], false, 0⟩, ⟨["b"], true, 0⟩, ⟨["c"], true, 0⟩], [], [], [], none, []⟩,
      [3, 4], [5, 6], ?_⟩⟩ <;> decide

/-! ## C14 -/

/-- **C14.** The sparse matrix returned by `getLogPriorDerivatives()` of any parameter object consists
of entries with rows 0, 1, 2, … (so rows of different sub-objects never collide); every column is
smaller than `numberOfParams()`; and the entries in column `j` are exactly the priors on the `j`-th
thawed parameter: value 1/sigma, right-hand side -(p_j - mean)/sigma, and the mean. -/
theorem C14_prior_derivs [Field α] (t : Par α) (h : PriorsOK t) :
    ∃ X es, getLogPriorDerivatives t = .ok X ∧ RepresentsOpt X es ∧
      es.map (·.row) = List.range es.length ∧
      (∀ e ∈ es, e.col < numberOfParams t) ∧
      ∀ j, (es.filter (fun e => e.col = j)).map (fun e => (e.mu, e.val, e.b)) =
        match (thawedPriors t)[j]? with
        | none => []
        | some (p, priors) => priors.map (fun ms => (ms.1, 1 / ms.2, -(p - ms.1) / ms.2)) := by
  obtain ⟨X, es, h1, h2, h3, h4⟩ := getLogPriorDerivatives_ok t h
  refine ⟨X, es, h1, h2, h3, ?_, ?_⟩
  · intro e he
    rw [← thawedPriors_length]
    exact h4.lt e he
  · intro j
    have := h4 j
    cases hj : (thawedPriors t)[j]? with
    | none => rw [hj] at this; exact this
    | some x => rw [hj] at this; exact this

/-- **C14 (positions).** The positions meant in `C14_prior_derivs` are those of `getParams()`. -/
theorem C14_positions (t : Par α) : (thawedPriors t).map (·.1) = getParams t := thawedPriors_vals t

/-- **C14 (stacking any sub-objects).** When a container stacks the derivative blocks of its
sub-objects — whatever they are — block `k` ends up with all its rows at or above the rows of the
blocks before it and strictly below the rows of the blocks after it, and its columns shifted by the
number of parameters of the sub-objects before it. -/
theorem C14_stack_next (r0 c0 : Nat) (acc x : PriorDerivs α) (n : Nat)
    (rest : List (Nat × Option (PriorDerivs α))) :
    stackLoop r0 c0 acc ((n, some x) :: rest) =
      stackLoop (r0 + rowsEnd x.rows) (c0 + n) (stackBlock r0 c0 acc x) rest ∧
    ∀ ri ∈ (x.rows.map (fun ri => ri.map (· + r0))), ∀ r ∈ ri, r0 ≤ r ∧ r < r0 + rowsEnd x.rows := by
  refine ⟨rfl, ?_⟩
  intro ri hri r hr
  simp only [List.mem_map] at hri
  obtain ⟨rj, hrj, rfl⟩ := hri
  simp only [List.mem_map] at hr
  obtain ⟨q, hq, rfl⟩ := hr
  have hbound : ∀ (xs : List Nat) (m : Nat), m ≤ xs.foldl (fun m x => max m (x + 1)) m ∧
      ∀ y ∈ xs, y < xs.foldl (fun m x => max m (x + 1)) m := by
    intro xs
    induction xs with
    | nil => intro m; simp
    | cons a xs ih =>
      intro m
      obtain ⟨h1, h2⟩ := ih (max m (a + 1))
      refine ⟨by simp only [List.foldl_cons]; omega, ?_⟩
      intro y hy
      simp only [List.mem_cons] at hy
      rcases hy with rfl | hy
      · simp only [List.foldl_cons]; omega
      · exact h2 y hy
  have := (hbound x.rows.flatten 0).2 q (List.mem_flatten.mpr ⟨rj, hrj, hq⟩)
  rw [← rowsEnd] at this
  omega

example : PriorsOK exTree := by
  simp [exTree, exPos, exFlux, PriorsOK, PriorsOKSubs]
example : getLogPriorDerivatives exTree = .ok (some
    { rows := [[0], [1]], cols := [0, 2], vals := [[1/4], [1/3]],
      bs := [[-(1/2)], [-(2/3)]], mus := [[1], [6]] }) := by decide +kernel

/-! ## C15 -/

/-- **C15.** For any step `d`, the log-prior after the step equals the log-prior before it, plus half
of `‖b‖²`, minus half of `‖b - A d‖²`, where `(A, b)` is the returned linearisation; and if no
parameter carrying a prior is frozen, the log-prior after the step is exactly `-½‖b - A d‖²`. -/
theorem C15_prior_linear [Field α] (t : Par α) (h : PriorsOK t) :
    ∃ X L, getLogPriorDerivatives t = .ok X ∧ getLogPrior t = .ok L ∧
      ∀ d : List α, d.length = numberOfParams t →
        ∃ L', getLogPrior (setParams t (List.zipWith (· + ·) (getParams t) d)).1 = .ok L' ∧
          L' = L + 1 / 2 * linearChi X (List.replicate (numberOfParams t) 0)
              - 1 / 2 * linearChi X d ∧
          (PriorsThawed t → L' = -(1 / 2) * linearChi X d) := by
  obtain ⟨X, es, h1, h2, h3, -, L, hL, hth, hstep⟩ := logPrior_step t h
  refine ⟨X, L, h1, hL, ?_⟩
  intro d hd
  refine ⟨_, hstep d hd, ?_, ?_⟩
  · rw [linearChi_rep X es h2 h3, linearChi_rep X es h2 h3]
  · intro ht
    rw [linearChi_rep X es h2 h3, hth ht]
    ring

example : getLogPrior exTree = .ok (-(1/2) * ((4-5)^2/2^2 + (3-1)^2/4^2) + -(1/2) * ((8-6)^2/3^2)) ∧
    PriorsThawed (.plist exFlux) ∧ ¬ PriorsThawed exTree := by
  refine ⟨by decide +kernel, ?_, ?_⟩
  · simp [exFlux, PriorsThawed]
  · simp [exTree, exPos, exFlux, PriorsThawed, PriorsThawedSubs]

/-! ## C16 -/

/-- **C16 (partial).** If no parameter inside a thawed list is frozen individually (whole sub-objects
may be frozen), the (index, mean, sigma) triples reported for index `j` are exactly the priors on the
parameter at position `j` of `getParams()`.
Missing: lists with individually frozen parameters (`C16_raw_index_false`). -/
theorem C16_gaussian_priors_partial [Zero α] (t : Par α) (hok : PriorsOK t) (h : ListsThawed t) :
    ∀ j, ((getGaussianPriors t).filter (fun g => g.1 = j)).map (·.2) =
      match (thawedPriors t)[j]? with
      | none => []
      | some (_, priors) => priors := by
  intro j
  have := getGaussianPriors_ok t hok h j
  cases hj : (thawedPriors t)[j]? with
  | none => rw [hj] at this; exact this
  | some x => rw [hj] at this; exact this

example :
    let t : Par Rat := .multi (.cons ["sky"] false (.scalar ⟨"Sky", 1, none, none, none, 1, none⟩)
      (.cons ["a"] true (.plist exFlux) (.cons ["b"] true (.plist exFlux) .nil)))
    getGaussianPriors t = [(1, 6, 3), (3, 6, 3)] ∧ getParams t = [7, 8, 7, 8] := by decide +kernel

/-- **C16 (negation).** With a frozen parameter in front, the reported index is not the parameter's
position: here the prior on the value 8 is reported for index 1, where `getParams()` has 100. -/
theorem C16_raw_index_false :
    ∃ t : Par Rat, getParams t = [8, 100] ∧ thawedPriors t = [(8, [(6, 3)]), (100, [])] ∧
      getGaussianPriors t = [(1, 6, 3)] := by
  refine ⟨.multi (.cons ["a"] true (.plist { exFlux with
      slots := [⟨["r"], false, 7⟩, ⟨["g"], true, 8⟩] })
    (.cons ["sky"] true (.scalar ⟨"Sky", 100, none, none, none, 1, none⟩) .nil)), ?_⟩
  decide +kernel

/-! ## C17 -/

/-- **C17 (partial).** For objects of the same length without missing parts: `a op b` and `a op x` are
elementwise on *all* parameters (frozen ones included) and keep the frozen/thawed state of `a`;
`(a + b) - b` has the values of `a`; the in-place form gives the same values as the out-of-place
form; `x + a` is right.
Missing: `x - a` is not the elementwise difference (`C17_rsub_false`). -/
theorem C17_arithmetic_partial [AddCommGroup α] (f : α → α → α) (a b : Par α)
    (x : α) (ha : NoMissing a) (hlen : (allValues b).length = (allValues a).length) :
    (∃ r, binop f a (.obj b) = .ok r ∧ (leaves r).map (·.1) = (leaves a).map (·.1) ∧
      allValues r = List.zipWith f (allValues a) (allValues b)) ∧
    (∃ r, binop f a (.num x) = .ok r ∧ (leaves r).map (·.1) = (leaves a).map (·.1) ∧
      allValues r = (allValues a).map (f · x)) ∧
    (∀ s, binop (· + ·) a (.obj b) = .ok s → ∃ d, binop (· - ·) s (.obj b) = .ok d ∧
      allValues d = allValues a) ∧
    (∀ o, (∀ u, o = .obj u → (allValues u).length = (allValues a).length) →
      (inplace f a o).2 = none ∧
      ∀ r, binop f a o = .ok r → allValues (inplace f a o).1 = allValues r) ∧
    (∃ r, radd x a = .ok r ∧ allValues r = (allValues a).map (x + ·)) := by
  refine ⟨binop_ok f a (.obj b) ha (by rintro u ⟨⟩; exact hlen), 
    binop_ok f a (.num x) ha (by rintro u ⟨⟩), ?_, ?_, ?_⟩
  · intro s hs
    have hns : NoMissing s := noMissing_binop _ 0 a s _ hs
    obtain ⟨r, h1, -, h3⟩ := binop_ok (· + ·) a (.obj b) ha (by rintro u ⟨⟩; exact hlen)
    rw [hs] at h1
    cases h1
    simp only at h3
    have hl : (allValues b).length = (allValues s).length := by
      rw [h3]; simp [hlen]
    obtain ⟨d, g1, -, g3⟩ := binop_ok (· - ·) s (.obj b) hns (by rintro u ⟨⟩; exact hl)
    refine ⟨d, g1, ?_⟩
    simp only at g3
    rw [g3, h3]
    apply List.ext_getElem?
    intro i
    by_cases hi : i < (allValues a).length
    · have hi' : i < (allValues b).length := by omega
      simp [List.getElem?_zipWith, List.getElem?_eq_getElem hi, List.getElem?_eq_getElem hi']
    · simp [List.getElem?_zipWith, List.getElem?_eq_none (Nat.le_of_not_lt hi)]
  · intro o ho
    have hvec : (opVector f a o).length = (getAllParams a).length := by
      cases o with
      | obj u =>
        have h1 := ho u rfl
        have h2 : getAllParams u = allValues u := getAllParams_eq true u
        have h3 : getAllParams a = allValues a := getAllParams_eq true a
        simp [opVector, h2, h3, h1]
      | num x => simp [opVector]
    obtain ⟨h1, h2⟩ := setAllParams_ok a (opVector f a o) hvec
    refine ⟨h1, ?_⟩
    intro r hr
    obtain ⟨r', g1, -, g3⟩ := binop_ok f a o ha ho
    rw [hr] at g1
    cases g1
    rw [g3]
    have : allValues (inplace f a o).1 = opVector f a o := by
      have := getAllParams_eq true (setAllParams a (opVector f a o)).1
      rw [h2] at this
      exact this.symm
    rw [this]
    have h3 : getAllParams a = allValues a := getAllParams_eq true a
    cases o with
    | obj u =>
      have h2 : getAllParams u = allValues u := getAllParams_eq true u
      simp [opVector, h2, h3]
    | num x => simp [opVector, h3]
  · obtain ⟨r, h1, -, h3⟩ := binop_ok (· + ·) a (.num x) ha (by rintro u ⟨⟩)
    refine ⟨r, h1, ?_⟩
    simp only at h3
    rw [h3]
    simp [add_comm]

example : (binop (· + ·) exTreeFull (.obj exTreeFull)).map leaves =
    .ok [(true, 6), (false, 8), (false, 200), (true, 14), (true, 16)] := by decide +kernel

/-- **C17 (negation).** `5 - a` computes `a - 5`. -/
theorem C17_rsub_false :
    ∃ (x : Int) (a : Par Int) (r : Par Int), rsub x a = .ok r ∧ NoMissing a ∧
      allValues r ≠ (allValues a).map (x - ·) ∧ allValues r = (allValues a).map (· - x) := by
  refine ⟨5, .plist (mkPList [(["x"], 2)]), _, rfl, by simp [NoMissing], ?_, ?_⟩ <;> decide

end Verif.Params
