import Verif.Mog.Lemmas
import Mathlib.Algebra.Field.Rat
import Mathlib.Tactic.Ring

/-!
# C45: parameters of mixtures of Gaussians
-/

namespace Verif.Mog

variable {R : Type}

/-- **C45.** The vector `getAllParams()`: amplitudes, then (x, y) of the means, then (xx, yy, xy) of the
covariances. -/
theorem C45_layout (m : MogParams R) (k : Nat) (c : Comp R) (hc : m.mog[k]? = some c) :
    let K := m.mog.length
    let p := m.getAllParams
    p.length = 6 * K ∧ p[k]? = some c.amp ∧ p[K + 2 * k]? = some c.mx ∧ p[K + 2 * k + 1]? = some c.my ∧
      p[3 * K + 3 * k]? = some c.vxx ∧ p[3 * K + 3 * k + 1]? = some c.vyy ∧ p[3 * K + 3 * k + 2]? = some c.vxy := by
  obtain ⟨hk, _⟩ := List.getElem?_eq_some_iff.mp hc
  simp only [MogParams.getAllParams]
  refine ⟨getThings_length _, ?_, ?_, ?_, ?_, ?_, ?_⟩
  · rw [getThings_get, if_pos hk, hc]; rfl
  · rw [getThings_get, if_neg (by omega), if_pos (by omega), if_pos (by omega),
      show (m.mog.length + 2 * k - m.mog.length) / 2 = k from by omega, hc]; rfl
  · rw [getThings_get, if_neg (by omega), if_pos (by omega), if_neg (by omega),
      show (m.mog.length + 2 * k + 1 - m.mog.length) / 2 = k from by omega, hc]; rfl
  · rw [getThings_get, if_neg (by omega), if_neg (by omega), if_pos (by omega),
      show (3 * m.mog.length + 3 * k - 3 * m.mog.length) / 3 = k from by omega, hc]; rfl
  · rw [getThings_get, if_neg (by omega), if_neg (by omega), if_neg (by omega), if_pos (by omega),
      show (3 * m.mog.length + 3 * k + 1 - 3 * m.mog.length) / 3 = k from by omega, hc]; rfl
  · rw [getThings_get, if_neg (by omega), if_neg (by omega), if_neg (by omega), if_neg (by omega),
      show (3 * m.mog.length + 3 * k + 2 - 3 * m.mog.length) / 3 = k from by omega, hc]; rfl

/-- Two Gaussians. -/
def exMog : Mix Int := [⟨1, 2, 3, 4, 5, 5, 6⟩, ⟨7, 8, 9, 10, 11, 11, 12⟩]

example : (fresh exMog).getAllParams = [1, 7, 2, 3, 8, 9, 4, 6, 5, 10, 12, 11] := by decide

/-- **C45.** Setting one parameter is replacing one entry of the vector; the covariances stay symmetric; an index
beyond the end raises IndexError and changes nothing. -/
theorem C45_set_one (m : Mix R) (i : Nat) (v : R) :
    (i < 6 * m.length → (setThing m i v).2 = .ok ((getThings m)[i]?.getD v) ∧
      getThings (setThing m i v).1 = (getThings m).set i v ∧ (setThing m i v).1.length = m.length) ∧
    ((∀ c ∈ m, c.vxy = c.vyx) → ∀ c ∈ (setThing m i v).1, c.vxy = c.vyx) ∧
    (6 * m.length ≤ i → setThing m i v = (m, .error .index)) := by
  refine ⟨fun hi => ?_, fun hs => ?_, fun hi => setThing_err m i v (by omega)⟩
  · obtain ⟨old, h1, h2, h3, h4, _⟩ := setThing_ok m i v hi
    exact ⟨by rw [h1, h2]; rfl, h3, h4⟩
  · by_cases hi : i < 6 * m.length
    · obtain ⟨_, _, _, _, _, h5⟩ := setThing_ok m i v hi
      exact h5 hs
    · rw [setThing_err m i v hi]; exact hs

example : (setThing exMog 11 20).1 = [⟨1, 2, 3, 4, 5, 5, 6⟩, ⟨7, 8, 9, 10, 20, 20, 12⟩] := by decide
example : setThing exMog 12 20 = (exMog, .error .index) := rfl

/-- The same object kept as a plain list of numbers with flags: what a `ParamList` with the values
`getAllParams()` would be. -/
def MogParams.asList (m : MogParams R) : Params.PList R :=
  ⟨List.zipWith (fun b v => ⟨[], b, v⟩) m.liquid m.getAllParams, [], [], [], none, []⟩

/-- One flag per parameter, symmetric covariances: true of new objects (`C45_new`) and kept by every method. -/
def MogParams.OK (m : MogParams R) : Prop :=
  m.liquid.length = 6 * m.mog.length ∧ ∀ c ∈ m.mog, c.vxy = c.vyx

theorem flags_asList (m : MogParams R) (h : m.OK) : Params.flags m.asList = m.liquid := by
  have hl := getThings_length m.mog
  have : (getThings m.mog).length = m.liquid.length := by rw [hl, h.1]
  unfold Params.flags MogParams.asList MogParams.getAllParams
  simp only [List.map_zipWith]
  generalize getThings m.mog = l at this
  generalize m.liquid = fs at this
  clear hl h
  induction fs generalizing l with
  | nil => rfl
  | cons f fs ih =>
    cases l with
    | nil => simp at this
    | cons x l => rw [List.zipWith_cons_cons, ih l (by simpa using this)]

theorem vals_asList (m : MogParams R) (h : m.OK) : Params.vals m.asList = m.getAllParams := by
  have hl := getThings_length m.mog
  have : (getThings m.mog).length = m.liquid.length := by rw [hl, h.1]
  unfold Params.vals MogParams.asList MogParams.getAllParams
  simp only [List.map_zipWith]
  generalize getThings m.mog = l at this
  generalize m.liquid = fs at this
  clear hl h
  induction fs generalizing l with
  | nil => rw [List.length_eq_zero_iff.mp this]; rfl
  | cons f fs ih =>
    cases l with
    | nil => simp at this
    | cons x l => rw [List.zipWith_cons_cons, ih l (by simpa using this)]

/-- **C45.** A new object has everything thawed and symmetric covariances. -/
theorem C45_new [Field R] (m : Mix R) : (fresh (symmetrize m)).OK := by
  refine ⟨?_, symm_symmetrize m⟩
  simp only [fresh, List.length_replicate]; omega

/-- **C45.** `getParams`, `setParam`, `setParams` and `setAllParams` of a mixture do to the vector of parameters
exactly what the methods of a plain parameter list do to its values, errors included. -/
theorem C45_refines (m : MogParams R) (h : m.OK) (i : Int) (v : R) (p : List R) :
    m.getParams = Params.getParams (.plist m.asList) ∧
    m.getAllParams = Params.getAllParams (.plist m.asList) ∧
    ((m.setParam i v).1.OK ∧
      (Params.Par.plist (m.setParam i v).1.asList, (m.setParam i v).2) = Params.setParam (.plist m.asList) i v) ∧
    ((m.setParams p).1.OK ∧
      (Params.Par.plist (m.setParams p).1.asList, (m.setParams p).2) = Params.setParams (.plist m.asList) p) ∧
    ((m.setAllParams p).1.OK ∧
      (Params.Par.plist (m.setAllParams p).1.asList, (m.setAllParams p).2) = Params.setAllParams (.plist m.asList) p) := by
  have hl := getThings_length m.mog
  refine ⟨?_, ?_, ?_, ?_, ?_⟩
  · simp only [Params.getParams, flags_asList m h, vals_asList m h]; rfl
  · simp only [Params.getAllParams, vals_asList m h]
  · unfold MogParams.setParam Params.setParam
    rw [flags_asList m h]
    cases hi : Params.indexLiquid m.liquid i with
    | error e => exact ⟨h, rfl⟩
    | ok ii =>
      simp only
      have hz : m.asList.slots[ii]? = match m.liquid[ii]?, (getThings m.mog)[ii]? with
          | some b, some v => some ⟨[], b, v⟩
          | _, _ => none := by
        simp only [MogParams.asList, MogParams.getAllParams, List.getElem?_zipWith]
        cases m.liquid[ii]? <;> cases (getThings m.mog)[ii]? <;> rfl
      by_cases hii : ii < 6 * m.mog.length
      · obtain ⟨old, h1, h2, h3, h4, h5⟩ := setThing_ok m.mog ii v hii
        obtain ⟨b, hb⟩ := get_of_lt m.liquid ii (by rw [h.1]; exact hii)
        rw [hz, hb, h1]
        simp only [h2]
        refine ⟨⟨by rw [h4]; exact h.1, h5 h.2⟩, ?_⟩
        refine Prod.ext (congrArg Params.Par.plist ?_) rfl
        simp only [MogParams.asList, MogParams.getAllParams, h3, Params.PList.mk.injEq, and_true]
        refine List.ext_getElem? (fun n => ?_)
        by_cases hn : ii = n
        · subst hn
          rw [List.getElem?_set_self (by rw [List.length_zipWith, hl, h.1]; omega), List.getElem?_zipWith, hb,
            List.getElem?_set_self (by omega)]
        · rw [List.getElem?_set_ne hn, List.getElem?_zipWith, List.getElem?_zipWith, List.getElem?_set_ne hn]
      · have h1 : (getThings m.mog)[ii]? = none := List.getElem?_eq_none (by omega)
        have h2 : m.liquid[ii]? = none := List.getElem?_eq_none (by rw [h.1]; omega)
        rw [hz, h1, h2]
        exact ⟨h, rfl⟩
  · obtain ⟨vs, h1, h2, h3, h4⟩ := setLiquid_ok m.liquid m.mog 0 p (by rw [h.1]; omega)
    rw [List.take_zero, List.nil_append] at h2
    refine ⟨⟨by simp only [MogParams.setParams]; rw [h3]; exact h.1, h4 h.2⟩, ?_⟩
    rw [List.drop_zero] at h1
    have h1' : Params.setSlots m.asList.slots p = _ := h1
    simp only [Params.setParams, h1']
    refine Prod.ext (congrArg Params.Par.plist ?_) rfl
    simp only [MogParams.asList, MogParams.getAllParams, MogParams.setParams, h2]
    rfl
  · obtain ⟨vs, h1, h2, h3, h4⟩ := setAll_ok p m.mog 0 m.liquid (by rw [h.1]; omega)
    rw [List.take_zero, List.nil_append] at h2
    refine ⟨⟨by simp only [MogParams.setAllParams]; rw [h3]; exact h.1, h4 h.2⟩, ?_⟩
    rw [List.drop_zero] at h1
    have h1' : Params.setAllSlots m.asList.slots p = _ := h1
    simp only [Params.setAllParams, h1']
    refine Prod.ext (congrArg Params.Par.plist ?_) rfl
    simp only [MogParams.asList, MogParams.getAllParams, MogParams.setAllParams, h2]
    rfl

/-- A mixture whose x means are frozen. -/
def exFrozen : MogParams Int := ⟨exMog, [true, true, false, true, false, true, true, true, true, true, true, true]⟩

example : exFrozen.OK := ⟨rfl, by decide⟩
example : exFrozen.getParams = [1, 7, 3, 9, 4, 6, 5, 10, 12, 11] := by decide
example : (exFrozen.setParam 2 30).1.mog = [⟨1, 2, 30, 4, 5, 5, 6⟩, ⟨7, 8, 9, 10, 11, 11, 12⟩] := by decide

theorem setAllSlots_vals (p : List R) : ∀ fs : List Bool, fs.length = p.length → ∀ vs : List R, vs.length = p.length →
    Params.setAllSlots (List.zipWith slot fs vs) p = (List.zipWith slot fs p, none) := by
  induction p with
  | nil =>
    intro fs hf vs _
    rw [List.length_eq_zero_iff.mp hf]; rfl
  | cons x p ih =>
    intro fs hf vs hv
    match fs, vs with
    | [], _ => simp at hf
    | _ :: _, [] => simp at hv
    | f :: fs, v :: vs =>
      simp only [List.zipWith_cons_cons, Params.setAllSlots, ih fs (by simpa using hf) vs (by simpa using hv), slot]

/-- **C45.** Round trip: after `setAllParams(p)` with a vector of the right length, `getAllParams()` is `p`; writing back
what was read changes nothing. -/
theorem C45_roundtrip (m : MogParams R) (h : m.OK) (p : List R) (hp : p.length = 6 * m.mog.length) :
    (m.setAllParams p).2 = none ∧ (m.setAllParams p).1.getAllParams = p ∧
      m.setAllParams m.getAllParams = (m, none) := by
  have hl := getThings_length m.mog
  have key : ∀ q : List R, q.length = 6 * m.mog.length →
      (m.setAllParams q).2 = none ∧ (m.setAllParams q).1.getAllParams = q ∧
        (m.setAllParams q).1.mog.length = m.mog.length ∧ Symm (m.setAllParams q).1.mog := by
    intro q hq
    obtain ⟨vs, h1, h2, h3, h4⟩ := setAll_ok q m.mog 0 m.liquid (by rw [h.1]; omega)
    rw [List.take_zero, List.nil_append] at h2
    rw [List.drop_zero, setAllSlots_vals q m.liquid (by rw [h.1, hq]) _ (by rw [hl, hq])] at h1
    simp only [Prod.mk.injEq] at h1
    have hlen : vs.length = q.length := by
      have e := congrArg List.length h2
      rw [getThings_length, h3] at e
      rw [hq, ← e]
    refine ⟨h1.2.symm, ?_, h3, h4 h.2⟩
    show getThings (setAll m.mog 0 q).1 = q
    rw [h2]
    refine List.ext_getElem? (fun n => ?_)
    have e := congrArg (fun l => (l[n]?).map (·.val)) h1.1
    simp only [List.getElem?_zipWith] at e
    by_cases hn : n < q.length
    · obtain ⟨b, hb⟩ := get_of_lt m.liquid n (by rw [h.1]; omega)
      obtain ⟨x, hx⟩ := get_of_lt q n hn
      obtain ⟨y, hy⟩ := get_of_lt vs n (by omega)
      rw [hb, hx, hy] at e
      rw [hx, hy]
      exact e.symm
    · rw [List.getElem?_eq_none (by omega), List.getElem?_eq_none (by omega)]
  obtain ⟨a, b, _, _⟩ := key p hp
  refine ⟨a, b, ?_⟩
  obtain ⟨a', b', c', d'⟩ := key m.getAllParams hl
  have : (m.setAllParams m.getAllParams).1.mog = m.mog := eq_of_getThings c' d' h.2 b'
  refine Prod.ext ?_ a'
  have e : (m.setAllParams m.getAllParams).1.liquid = m.liquid := rfl
  cases hm : (m.setAllParams m.getAllParams).1
  rw [hm] at this e
  simp only at this e
  rw [this, e]

example : ((fresh exMog).setAllParams [1, 2, 3, 4, 5, 6, 7, 8, 9, 10, 11, 12]).1.mog =
    [⟨1, 3, 4, 7, 9, 9, 8⟩, ⟨2, 5, 6, 10, 12, 12, 11⟩] := by decide

/-- **C45.** Each name reads and sets the number it names, and nothing else. -/
theorem C45_names (m : Mix R) (k : Nat) (c : Comp R) (hc : m[k]? = some c) (v : R) :
    (getNamed m ("amp" ++ k.repr) = .ok c.amp ∧ setNamed m ("amp" ++ k.repr) v = (m.set k { c with amp := v }, none)) ∧
    (getNamed m ("meanx" ++ k.repr) = .ok c.mx ∧ setNamed m ("meanx" ++ k.repr) v = (m.set k { c with mx := v }, none)) ∧
    (getNamed m ("meany" ++ k.repr) = .ok c.my ∧ setNamed m ("meany" ++ k.repr) v = (m.set k { c with my := v }, none)) ∧
    (getNamed m ("varxx" ++ k.repr) = .ok c.vxx ∧ setNamed m ("varxx" ++ k.repr) v = (m.set k { c with vxx := v }, none)) ∧
    (getNamed m ("varyy" ++ k.repr) = .ok c.vyy ∧ setNamed m ("varyy" ++ k.repr) v = (m.set k { c with vyy := v }, none)) ∧
    (getNamed m ("varxy" ++ k.repr) = .ok c.vxy ∧
      setNamed m ("varxy" ++ k.repr) v = (m.set k { c with vxy := v, vyx := v }, none)) := by
  obtain ⟨hk, _⟩ := List.getElem?_eq_some_iff.mp hc
  have mem : ∀ e ∈ [("amp" ++ k.repr, k), ("meanx" ++ k.repr, m.length + k * 2), ("meany" ++ k.repr, m.length + k * 2 + 1),
     ("varxx" ++ k.repr, m.length * 3 + k * 3), ("varyy" ++ k.repr, m.length * 3 + k * 3 + 1),
     ("varxy" ++ k.repr, m.length * 3 + k * 3 + 2)], e ∈ names m.length :=
    fun e he => List.mem_flatMap.mpr ⟨k, List.mem_range.mpr hk, he⟩
  obtain ⟨_, l1, l2, l3, l4, l5, l6⟩ := C45_layout (fresh m) k c hc
  simp only [fresh, MogParams.getAllParams] at l1 l2 l3 l4 l5 l6
  have g : ∀ (n : String) (i : Nat) (x : R), (n, i) ∈ names m.length → (getThings m)[i]? = some x → getNamed m n = .ok x := by
    intro n i x hm hx
    unfold getNamed
    rw [namedIndex_of_mem hm]
    simp only [hx]
  have s : ∀ (n : String) (i : Nat) (m' : Mix R) (x : R), (n, i) ∈ names m.length → setThing m i v = (m', .ok x) →
      setNamed m n v = (m', none) := by
    intro n i m' x hm hx
    unfold setNamed
    rw [namedIndex_of_mem hm]
    simp only [hx]
  refine ⟨⟨g _ k _ (mem _ (by simp)) l1, s _ k _ c.amp (mem _ (by simp)) ?_⟩,
    ⟨g _ (m.length + k * 2) _ (mem _ (by simp)) (by rw [Nat.mul_comm]; exact l2), s _ (m.length + k * 2) _ c.mx (mem _ (by simp)) ?_⟩,
    ⟨g _ (m.length + k * 2 + 1) _ (mem _ (by simp)) (by rw [Nat.mul_comm k]; exact l3),
      s _ (m.length + k * 2 + 1) _ c.my (mem _ (by simp)) ?_⟩,
    ⟨g _ (m.length * 3 + k * 3) _ (mem _ (by simp)) (by rw [Nat.mul_comm k, Nat.mul_comm m.length]; exact l4),
      s _ (m.length * 3 + k * 3) _ c.vxx (mem _ (by simp)) ?_⟩,
    ⟨g _ (m.length * 3 + k * 3 + 1) _ (mem _ (by simp)) (by rw [Nat.mul_comm k, Nat.mul_comm m.length]; exact l5),
      s _ (m.length * 3 + k * 3 + 1) _ c.vyy (mem _ (by simp)) ?_⟩,
    ⟨g _ (m.length * 3 + k * 3 + 2) _ (mem _ (by simp)) (by rw [Nat.mul_comm k, Nat.mul_comm m.length]; exact l6),
      s _ (m.length * 3 + k * 3 + 2) _ c.vxy (mem _ (by simp)) ?_⟩⟩
  · unfold setThing; simp only [if_pos hk, hc]
  · unfold setThing
    simp only [if_neg (show ¬ m.length + k * 2 < m.length by omega),
      if_pos (show m.length + k * 2 - m.length < m.length * 2 by omega),
      show (m.length + k * 2 - m.length) / 2 = k from by omega, hc,
      if_pos (show (m.length + k * 2 - m.length) % 2 = 0 by omega)]
  · unfold setThing
    simp only [if_neg (show ¬ m.length + k * 2 + 1 < m.length by omega),
      if_pos (show m.length + k * 2 + 1 - m.length < m.length * 2 by omega),
      show (m.length + k * 2 + 1 - m.length) / 2 = k from by omega, hc,
      if_neg (show ¬ (m.length + k * 2 + 1 - m.length) % 2 = 0 by omega)]
  · unfold setThing
    simp only [if_neg (show ¬ m.length * 3 + k * 3 < m.length by omega),
      if_neg (show ¬ m.length * 3 + k * 3 - m.length < m.length * 2 by omega),
      show (m.length * 3 + k * 3 - m.length - m.length * 2) / 3 = k from by omega, hc,
      if_pos (show (m.length * 3 + k * 3 - m.length - m.length * 2) % 3 = 0 by omega)]
  · unfold setThing
    simp only [if_neg (show ¬ m.length * 3 + k * 3 + 1 < m.length by omega),
      if_neg (show ¬ m.length * 3 + k * 3 + 1 - m.length < m.length * 2 by omega),
      show (m.length * 3 + k * 3 + 1 - m.length - m.length * 2) / 3 = k from by omega, hc,
      if_neg (show ¬ (m.length * 3 + k * 3 + 1 - m.length - m.length * 2) % 3 = 0 by omega),
      if_pos (show (m.length * 3 + k * 3 + 1 - m.length - m.length * 2) % 3 = 1 by omega)]
  · unfold setThing
    simp only [if_neg (show ¬ m.length * 3 + k * 3 + 2 < m.length by omega),
      if_neg (show ¬ m.length * 3 + k * 3 + 2 - m.length < m.length * 2 by omega),
      show (m.length * 3 + k * 3 + 2 - m.length - m.length * 2) / 3 = k from by omega, hc,
      if_neg (show ¬ (m.length * 3 + k * 3 + 2 - m.length - m.length * 2) % 3 = 0 by omega),
      if_neg (show ¬ (m.length * 3 + k * 3 + 2 - m.length - m.length * 2) % 3 = 1 by omega)]

example : getNamed exMog "varyy1" = .ok 12 := by decide
example : getNamed exMog "amp2" = .error .key := by decide

/-- **C45.** `MogParams(*args)` takes any vector of `6 K` numbers, and `getAllParams()` gives it back; any other number of
arguments (except three, the other form of the call) is an AssertionError. -/
theorem C45_args [Field R] (h2 : (2 : R) ≠ 0) (args : List R) :
    (∀ K, args.length = 6 * K →
      ∃ m, ofArgs args = .ok m ∧ m.length = K ∧ (fresh m).getAllParams = args ∧ (fresh m).OK) ∧
    ((∀ K, args.length ≠ 6 * K) → args.length ≠ 3 → ofArgs args = .error .assertion) := by
  refine ⟨fun K h => ?_, fun h _ => ?_⟩
  · obtain ⟨m, g1, g2, g3, g4⟩ := ofArgs_ok h2 args K h
    refine ⟨m, g1, g2, g3, ?_, g4⟩
    unfold fresh; simp; omega
  · unfold ofArgs
    rw [if_neg (fun hh => h (args.length / 6) (by omega))]

example : ofArgs [1, 2, 3, 4, 6, 5] = .ok [(⟨1, 2, 3, 4, 5, 5, 6⟩ : Comp ℚ)] := by
  have : (match ofArgs [1, 2, 3, 4, 6, 5] with | .ok m => m | .error _ => []) = [(⟨1, 2, 3, 4, 5, 5, 6⟩ : Comp ℚ)] := by decide +kernel
  exact congrArg Except.ok this
example : ofArgs ([1, 2, 3, 4, 6, 5, 7, 8, 9] : List ℚ) = .error .assertion := rfl

/-- **C45.** `copy()` of a mixture with symmetric covariances is the same mixture with the same flags. -/
theorem C45_copy [Field R] (h2 : (2 : R) ≠ 0) (m : MogParams R) (h : m.OK) : m.copy = .ok m := by
  unfold MogParams.copy MogParams.getAllParams
  rw [ofArgs_getThings h2 m.mog h.2]

example : (fresh ([⟨1, 2, 3, 4, 5, 5, 6⟩] : Mix ℚ)).OK := C45_new (R := ℚ) [⟨1, 2, 3, 4, 5, 5, 6⟩] |> fun h => by
  have e : symmetrize ([⟨1, 2, 3, 4, 5, 5, 6⟩] : Mix ℚ) = [⟨1, 2, 3, 4, 5, 5, 6⟩] := by decide +kernel
  rwa [e] at h

/-- **C45.** A `GaussianMixtureEllipsePSF`: setting one parameter replaces one entry of the vector, and afterwards the
covariance of every Gaussian is that of its ellipse. -/
theorem C45_ellipse (cov : R × R × R → R × R × R × R) (m : EllMix R) (hm : m.ells.length = m.mog.length)
    (i : Nat) (v : R) :
    (i < 6 * m.mog.length →
      (m.setThing cov i v).2 = .ok (m.getThings[i]?.getD v) ∧
      (m.setThing cov i v).1.getThings = m.getThings.set i v ∧
      (m.setThing cov i v).1.mog.length = m.mog.length ∧
      (m.setThing cov i v).1.ells.length = m.mog.length ∧
      (m.setThing cov i v).1.mog.map (fun c => (c.vxx, c.vxy, c.vyx, c.vyy)) =
        (m.setThing cov i v).1.ells.map cov) ∧
    (6 * m.mog.length ≤ i → m.setThing cov i v = (m, .error .index)) := by
  have hl : m.getThings.length = 6 * m.mog.length := by
    simp only [EllMix.getThings, List.length_append, List.length_map, length_flatMap2, length_flatMap3, hm]; omega
  unfold EllMix.setThing
  refine ⟨fun hi => ?_, fun hi => ?_⟩
  · obtain ⟨x, hx⟩ := get_of_lt m.getThings i (by omega)
    simp only [hx]
    obtain ⟨h1, h2, h3, h4⟩ := setThings_ok cov m (m.getThings.set i v) (by rw [List.length_set, hl])
    exact ⟨rfl, h1, h2, h3, h4⟩
  · simp only [List.getElem?_eq_none (show m.getThings.length ≤ i by omega)]

/-- Two ellipses whose covariance is made up. -/
def exEll : EllMix Int := ⟨[⟨1, 2, 3, 40, 50, 50, 60⟩, ⟨7, 8, 9, 100, 110, 110, 120⟩], [(4, 5, 6), (10, 11, 12)]⟩

example : (exEll.setThing (fun e => (10 * e.1, 10 * e.2.1, 10 * e.2.1, 10 * e.2.2)) 8 0).1 =
    ⟨[⟨1, 2, 3, 40, 50, 50, 0⟩, ⟨7, 8, 9, 100, 110, 110, 120⟩], [(4, 5, 0), (10, 11, 12)]⟩ := by decide

end Verif.Mog
