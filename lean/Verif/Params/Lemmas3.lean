import Verif.Params.Lemmas2
import Verif.Params.Model2

set_option linter.unusedSimpArgs false
set_option linter.unusedVariables false

namespace Verif.Params

open Verif

variable {α : Type}

/-! ### C07: freezeAllBut -/

theorem namesUnique_congr {es es' : List (List String × Bool × List α)}
    (h : es'.map (·.1) = es.map (·.1)) (hu : NamesUnique es) : NamesUnique es' := by
  intro i j e e' n hi hj hn hn'
  have get : ∀ (i : Nat) (e : List String × Bool × List α), es'[i]? = some e →
      ∃ f, es[i]? = some f ∧ f.1 = e.1 := by
    intro i e hi
    have : (es'.map (·.1))[i]? = some e.1 := by simp [List.getElem?_map, hi]
    rw [h] at this
    simpa [List.getElem?_map, Option.map_eq_some_iff] using this
  obtain ⟨f, hf, hfe⟩ := get i e hi
  obtain ⟨f', hf', hfe'⟩ := get j e' hj
  exact hu i j f f' n hf hf' (hfe ▸ hn) (hfe' ▸ hn')

theorem setEntryFlag_names (b : Bool) (k : Nat) (es : List (List String × Bool × List α)) :
    (setEntryFlag b k es).map (·.1) = es.map (·.1) := by
  apply List.ext_getElem?
  intro j
  simp only [setEntryFlag, List.getElem?_map, List.getElem?_modify]
  by_cases hj : k = j
  · subst hj; cases es[k]? <;> simp
  · simp [hj]

theorem setFlagNamed_entries (b : Bool) (n : String) (t : Par α) (hs : ∀ s, t ≠ .scalar s)
    (hu : NamesUnique (entries t)) :
    ((∃ e ∈ entries t, n ∈ e.1) → ∃ t', setFlagNamed b n t = .ok t' ∧ (∀ s, t' ≠ .scalar s) ∧
      entries t' = (entries t).map (fun e => if n ∈ e.1 then (e.1, b, e.2.2) else e)) ∧
    ((∀ e ∈ entries t, n ∉ e.1) → setFlagNamed b n t = .error .assertion) := by
  constructor
  · rintro ⟨e, he, hn⟩
    have hidx : ∃ i, entryIndex n (entries t) = some i := by
      cases h : entryIndex n (entries t) with
      | some i => exact ⟨i, rfl⟩
      | none =>
        simp only [entryIndex, List.findIdx?_eq_none_iff] at h
        have := h e he
        simp [hn] at this
    obtain ⟨i, hi⟩ := hidx
    have hlt : i < (entries t).length := by
      simp only [entryIndex, List.findIdx?_eq_some_iff_findIdx_eq] at hi
      exact hi.1
    have hni : n ∈ ((entries t)[i]).1 := by
      simp only [entryIndex, List.findIdx?_eq_some_iff_getElem] at hi
      obtain ⟨h1, h2, _⟩ := hi
      simpa using h2
    obtain ⟨t', ht, hns, he'⟩ := (setFlag_entries b i t hs).1 hlt
    refine ⟨t', by simp [setFlagNamed, nameIndex_eq, hi, ht], hns, ?_⟩
    rw [he']
    apply List.ext_getElem?
    intro j
    simp only [setEntryFlag, List.getElem?_map, List.getElem?_modify]
    cases hj : (entries t)[j]? with
    | none => by_cases hij : i = j <;> simp [hij]
    | some f =>
      by_cases hij : i = j
      · subst hij
        rw [List.getElem?_eq_getElem hlt] at hj
        cases hj
        simp [hni]
      · have : n ∉ f.1 := fun hnf =>
          hij (hu i j _ _ n (List.getElem?_eq_getElem hlt) hj hni hnf)
        simp [hij, this]
  · intro h
    have : entryIndex n (entries t) = none := by
      simp only [entryIndex, List.findIdx?_eq_none_iff]
      intro e he
      simpa using h e he
    simp [setFlagNamed, nameIndex_eq, this]

theorem thawParams_entries (ns : List String) (t : Par α) (hs : ∀ s, t ≠ .scalar s)
    (hu : NamesUnique (entries t)) :
    ((∀ n ∈ ns, ∃ e ∈ entries t, n ∈ e.1) → ∃ t', thawParams ns t = .ok t' ∧
      entries t' = (entries t).map (fun e =>
        (e.1, e.2.1 || ns.any (fun n => decide (n ∈ e.1)), e.2.2))) ∧
    ((∃ n ∈ ns, ∀ e ∈ entries t, n ∉ e.1) → thawParams ns t = .error .assertion) := by
  induction ns generalizing t with
  | nil =>
    simp [thawParams]
  | cons n ns ih =>
    obtain ⟨h1, h2⟩ := setFlagNamed_entries true n t hs hu
    by_cases hn : ∃ e ∈ entries t, n ∈ e.1
    · obtain ⟨t', ht, hns, he⟩ := h1 hn
      have hnames : (entries t').map (·.1) = (entries t).map (·.1) := by
        rw [he, List.map_map]
        apply List.map_congr_left
        intro e _
        by_cases h : n ∈ e.1 <;> simp [h]
      have hmem : ∀ m : String, (∃ e ∈ entries t', m ∈ e.1) ↔ (∃ e ∈ entries t, m ∈ e.1) := by
        intro m
        have h1 : ∀ es : List (List String × Bool × List α),
            (∃ e ∈ es, m ∈ e.1) ↔ (∃ x ∈ es.map (·.1), m ∈ x) := by
          intro es; simp
        rw [h1, h1, hnames]
      obtain ⟨g1, g2⟩ := ih t' hns (namesUnique_congr hnames hu)
      constructor
      · intro hall
        obtain ⟨t'', ht'', he''⟩ := g1 (fun m hm => (hmem m).2 (hall m (by simp [hm])))
        refine ⟨t'', by simp [thawParams, ht, Except.bind, ht''], ?_⟩
        rw [he'', he, List.map_map]
        apply List.map_congr_left
        intro e _
        by_cases h : n ∈ e.1 <;> simp [h]
      · rintro ⟨m, hm, hno⟩
        simp only [thawParams, ht, Except.bind]
        apply g2
        simp only [List.mem_cons] at hm
        rcases hm with rfl | hm
        · obtain ⟨e, he1, he2⟩ := hn
          exact absurd he2 (hno e he1)
        · refine ⟨m, hm, ?_⟩
          intro e he1 he2
          obtain ⟨f, hf1, hf2⟩ := (hmem m).1 ⟨e, he1, he2⟩
          exact hno f hf1 hf2
    · constructor
      · intro hall
        exact absurd (hall n (by simp)) hn
      · intro _
        simp [thawParams, h2 (fun e he hne => hn ⟨e, he, hne⟩), Except.bind]

theorem thawParams_withFlags (c : Bool) (ns : List String) (t t' : Par α)
    (h : thawParams ns t = .ok t') : withFlags c t' = withFlags c t := by
  induction ns generalizing t with
  | nil => simp [thawParams] at h; rw [h]
  | cons n ns ih =>
    simp only [thawParams, Except.bind] at h
    cases hn : setFlagNamed true n t with
    | error e => simp [hn] at h
    | ok s =>
      simp only [hn] at h
      rw [ih s h]
      simp only [setFlagNamed] at hn
      split at hn
      · simp at hn
      · exact setFlag_withFlags true c _ t s hn

theorem runFlags_entries (ops : List (Bool × Nat)) (t : Par α) (hs : ∀ s, t ≠ .scalar s)
    (h : ∀ op ∈ ops, op.2 < (entries t).length) :
    ∃ t', runFlags ops t = .ok t' ∧ (entries t').length = (entries t).length ∧
      ∀ (j : Nat) (e : List String × Bool × List α), (entries t)[j]? = some e →
        (entries t')[j]? = some (e.1,
          match (ops.filter (fun op => op.2 = j)).getLast? with
          | some op => op.1
          | none => e.2.1, e.2.2) := by
  induction ops generalizing t with
  | nil => exact ⟨t, rfl, rfl, by intro j e he; simpa using he⟩
  | cons op ops ih =>
    obtain ⟨b, k⟩ := op
    obtain ⟨t1, ht1, hs1, he1⟩ := (setFlag_entries b k t hs).1 (h (b, k) (by simp))
    have hlen : (entries t1).length = (entries t).length := by simp [he1, setEntryFlag]
    obtain ⟨t2, ht2, hl2, he2⟩ := ih t1 hs1 (by
      intro op hop; rw [hlen]; exact h op (by simp [hop]))
    refine ⟨t2, by simp [runFlags, ht1, Except.bind, ht2], by omega, ?_⟩
    intro j e he
    by_cases hkj : k = j
    · subst hkj
      have h1 : (entries t1)[k]? = some (e.1, b, e.2.2) := by
        simp [he1, setEntryFlag, List.getElem?_modify, he]
      rw [he2 k _ h1]
      simp only [decide_true, List.filter_cons_of_pos, List.getLast?_cons]
      cases (ops.filter (fun op => op.2 = k)).getLast? <;> simp
    · have h1 : (entries t1)[j]? = some e := by
        simp [he1, setEntryFlag, List.getElem?_modify, he, hkj]
      rw [he2 j _ h1]
      simp [hkj]

/-! ### C09: thawPathsTo -/

theorem listed_iff (ns nm : List String) : nm.any (fun n => ns.contains n) = true ↔ Listed ns nm := by
  simp [Listed]

theorem listed_head_iff (ns nm : List String) :
    nm.head?.any (fun n => ns.contains n) = true ↔ Listed ns nm.head?.toList := by
  cases nm <;> simp [Listed]

/-- A node is hit directly or through its sub-object. -/
def Hit (ns : List String) (x : Node α) : Prop :=
  Listed ns x.names ∨ ∃ s, x.sub = some s ∧ Mentions ns s

theorem mentions_iff (ns : List String) (t : Par α) :
    Mentions ns t ↔ ∃ i x, child t i = some x ∧ Hit ns x := by
  constructor
  · rintro ⟨i, p, x, hx, hl⟩
    cases p with
    | nil => exact ⟨i, x, hx, Or.inl hl⟩
    | cons j p =>
      simp only [nodeAt] at hx
      split at hx
      · rename_i nm l s hc
        exact ⟨i, _, hc, Or.inr ⟨s, rfl, j, p, x, hx, hl⟩⟩
      · simp at hx
  · rintro ⟨i, x, hc, hl | ⟨s, hs, j, p, y, hy, hl⟩⟩
    · exact ⟨i, [], x, hc, hl⟩
    · obtain ⟨nm, l, sub⟩ := x
      simp at hs
      subst hs
      exact ⟨i, j :: p, y, by simp [nodeAt, hc, hy], hl⟩

mutual
theorem thawPathsTo_ret (ns : List String) (t : Par α) :
    (thawPathsTo ns t).2 = true ↔ Mentions ns t := by
  match t with
  | .scalar s => rw [mentions_iff]; simp [thawPathsTo, child]
  | .plist l =>
    rw [mentions_iff]
    simp only [thawPathsTo, child, Hit, List.any_eq_true]
    constructor
    · rintro ⟨s, hs, hn⟩
      obtain ⟨i, hi⟩ := List.mem_iff_getElem?.mp hs
      refine ⟨i, ⟨s.names, s.liquid, none⟩, by simp [hi], Or.inl ?_⟩
      obtain ⟨n, h1, h2⟩ := hn
      exact ⟨n, h1, by simpa using h2⟩
    · rintro ⟨i, x, hx, hl | ⟨s, hs, _⟩⟩
      · simp only [Option.map_eq_some_iff] at hx
        obtain ⟨s, hs, rfl⟩ := hx
        obtain ⟨n, h1, h2⟩ := hl
        exact ⟨s, List.mem_iff_getElem?.mpr ⟨i, hs⟩, n, h1, by simpa using h2⟩
      · simp only [Option.map_eq_some_iff] at hx
        obtain ⟨s', _, rfl⟩ := hx
        simp at hs
  | .multi subs =>
    rw [mentions_iff]
    simpa [thawPathsTo, child] using thawPathsToSubs_ret ns subs
theorem thawPathsToSubs_ret (ns : List String) (t : Subs α) :
    (thawPathsToSubs ns t).2 = true ↔ ∃ i x, childSubs t i = some x ∧ Hit ns x := by
  match t with
  | .nil => simp [thawPathsToSubs, childSubs]
  | .cons nm l s rest =>
    have h1 := thawPathsTo_ret ns s
    have h2 := thawPathsToSubs_ret ns rest
    simp only [thawPathsToSubs, Bool.or_eq_true, h1, h2, listed_head_iff]
    constructor
    · rintro ((h | h) | ⟨i, x, hx, h⟩)
      · exact ⟨0, _, rfl, Or.inr ⟨s, rfl, h⟩⟩
      · exact ⟨0, _, rfl, Or.inl h⟩
      · exact ⟨i + 1, x, hx, h⟩
    · rintro ⟨i, x, hx, h⟩
      cases i with
      | zero =>
        simp [childSubs] at hx
        subst hx
        rcases h with h | ⟨s', hs, h⟩
        · exact Or.inl (Or.inr h)
        · simp at hs; subst hs; exact Or.inl (Or.inl h)
      | succ i => exact Or.inr ⟨i, x, hx, h⟩
  | .missing nm l rest =>
    have h2 := thawPathsToSubs_ret ns rest
    simp only [thawPathsToSubs, Bool.or_eq_true, h2, listed_head_iff]
    constructor
    · rintro (h | ⟨i, x, hx, h⟩)
      · exact ⟨0, _, rfl, Or.inl h⟩
      · exact ⟨i + 1, x, hx, h⟩
    · rintro ⟨i, x, hx, h⟩
      cases i with
      | zero =>
        simp [childSubs] at hx
        subst hx
        rcases h with h | ⟨s', hs, h⟩
        · exact Or.inl h
        · simp at hs
      | succ i => exact Or.inr ⟨i, x, hx, h⟩
end

theorem thawPathsToSubs_child (ns : List String) (t : Subs α) (i : Nat) :
    (∀ x, childSubs t i = some x → ∃ y, childSubs (thawPathsToSubs ns t).1 i = some y ∧
      y.names = x.names ∧ (y.liquid = true ↔ x.liquid = true ∨ Hit ns x) ∧
      y.sub = x.sub.map (fun s => (thawPathsTo ns s).1)) ∧
    (childSubs t i = none → childSubs (thawPathsToSubs ns t).1 i = none) := by
  induction t using Subs.rec (motive_1 := fun _ => True) generalizing i with
  | scalar => trivial
  | plist => trivial
  | multi => trivial
  | nil => simp [childSubs, thawPathsToSubs]
  | cons nm l s rest _ ih =>
    cases i with
    | succ i => simpa [childSubs, thawPathsToSubs] using ih i
    | zero =>
      constructor
      · intro x hx
        simp [childSubs] at hx
        subst hx
        refine ⟨_, rfl, rfl, ?_, rfl⟩
        have h1 := thawPathsTo_ret ns s
        have h2 := listed_head_iff ns nm
        simp only [Hit, Option.some.injEq, exists_eq_left', ← h1, ← h2]
        cases (thawPathsTo ns s).2 <;> cases nm.head?.any (fun n => ns.contains n) <;> simp
      · simp [childSubs]
  | missing nm l rest ih =>
    cases i with
    | succ i => simpa [childSubs, thawPathsToSubs] using ih i
    | zero =>
      constructor
      · intro x hx
        simp [childSubs] at hx
        subst hx
        refine ⟨_, rfl, rfl, ?_, rfl⟩
        have h2 := listed_head_iff ns nm
        simp only [Hit, ← h2]
        cases nm.head?.any (fun n => ns.contains n) <;> simp
      · simp [childSubs]

theorem thawPathsTo_child (ns : List String) (t : Par α) (i : Nat) :
    (∀ x, child t i = some x → ∃ y, child (thawPathsTo ns t).1 i = some y ∧
      y.names = x.names ∧ (y.liquid = true ↔ x.liquid = true ∨ Hit ns x) ∧
      y.sub = x.sub.map (fun s => (thawPathsTo ns s).1)) ∧
    (child t i = none → child (thawPathsTo ns t).1 i = none) := by
  match t with
  | .scalar s => simp [child, thawPathsTo]
  | .plist l =>
    constructor
    · intro x hx
      simp only [child, Option.map_eq_some_iff] at hx
      obtain ⟨s, hs, rfl⟩ := hx
      refine ⟨⟨s.names, (thawSlot ns s).liquid, none⟩, ?_, rfl, ?_, rfl⟩
      · simp only [child, thawPathsTo, List.getElem?_map, hs, Option.map_some, thawSlot]
        split <;> rfl
      · have h := listed_iff ns s.names
        simp only [Hit, ← h, thawSlot]
        split <;> simp_all
    · intro h
      simp only [child, Option.map_eq_none_iff] at h
      simp [child, thawPathsTo, List.getElem?_map, h]
  | .multi subs => simpa [child, thawPathsTo] using thawPathsToSubs_child ns subs i

theorem thawPathsTo_nodeAt (ns : List String) (t : Par α) (i : Nat) (p : List Nat) :
    (∀ x, nodeAt t i p = some x → ∃ y, nodeAt (thawPathsTo ns t).1 i p = some y ∧
      y.names = x.names ∧ (y.liquid = true ↔ x.liquid = true ∨ Hit ns x)) ∧
    (nodeAt t i p = none → nodeAt (thawPathsTo ns t).1 i p = none) := by
  induction p generalizing t i with
  | nil =>
    obtain ⟨h1, h2⟩ := thawPathsTo_child ns t i
    exact ⟨fun x hx => by obtain ⟨y, a, b, c, _⟩ := h1 x hx; exact ⟨y, a, b, c⟩, h2⟩
  | cons j p ih =>
    obtain ⟨h1, h2⟩ := thawPathsTo_child ns t i
    cases hc : child t i with
    | none => simp [nodeAt, hc, h2 hc]
    | some x =>
      obtain ⟨y, hy, _, _, hsub⟩ := h1 x hc
      obtain ⟨nm, l, sub⟩ := x
      obtain ⟨nm', l', sub'⟩ := y
      simp at hsub
      subst hsub
      cases sub with
      | none => simp [nodeAt, hc, hy]
      | some s =>
        simp only [Option.map_some] at hy
        simp only [nodeAt, hc, hy]
        exact ih s j

mutual
theorem thawPathsTo_withFlags (ns : List String) (c : Bool) (t : Par α) :
    withFlags c (thawPathsTo ns t).1 = withFlags c t := by
  match t with
  | .scalar s => simp [thawPathsTo]
  | .plist l =>
    simp only [thawPathsTo, withFlags, List.map_map, Par.plist.injEq]
    congr 1
    apply List.map_congr_left
    intro s _
    simp only [Function.comp, thawSlot]
    split <;> rfl
  | .multi subs => simpa [thawPathsTo, withFlags] using thawPathsToSubs_withFlags ns c subs
theorem thawPathsToSubs_withFlags (ns : List String) (c : Bool) (t : Subs α) :
    withFlagsSubs c (thawPathsToSubs ns t).1 = withFlagsSubs c t := by
  match t with
  | .nil => simp [thawPathsToSubs]
  | .cons nm l s rest =>
    simp [thawPathsToSubs, withFlagsSubs, thawPathsTo_withFlags ns c s,
      thawPathsToSubs_withFlags ns c rest]
  | .missing nm l rest =>
    simp [thawPathsToSubs, withFlagsSubs, thawPathsToSubs_withFlags ns c rest]
end

/-! ### C10: index maps -/

theorem countLiquid_take_lt (fs : List Bool) (j : Nat) (h : fs[j]? = some true) :
    countLiquid (fs.take j) < countLiquid fs := by
  induction fs generalizing j with
  | nil => simp at h
  | cons b fs ih =>
    cases j with
    | zero => simp at h; subst h; simp
    | succ j =>
      have := ih j (by simpa using h)
      cases b <;> simp <;> omega

theorem rank_inj : ∀ (fs : List Bool) (a b : Nat), fs[a]? = some true → fs[b]? = some true →
    countLiquid (fs.take a) = countLiquid (fs.take b) → a = b := by
  intro fs
  induction fs with
  | nil => intro a b ha; simp at ha
  | cons f fs ih =>
    intro a b ha hb hab
    cases a with
    | zero =>
      cases b with
      | zero => rfl
      | succ b => simp at ha; subst ha; simp at hab
    | succ a =>
      cases b with
      | zero => simp at hb; subst hb; simp at hab
      | succ b =>
        have := ih a b (by simpa using ha) (by simpa using hb) (by cases f <;> simpa using hab)
        omega

theorem indexLiquid_rank (fs : List Bool) (j : Nat) (h : fs[j]? = some true) :
    indexLiquid fs (countLiquid (fs.take j)) = .ok j := by
  obtain ⟨ii, h1, h2, h3⟩ := indexLiquid_ok fs _ (countLiquid_take_lt fs j h)
  rw [h1, rank_inj fs ii j h2 h h3]

theorem thawedIndices_get (fs : List Bool) (k j : Nat) (h : fs[j]? = some true) :
    (thawedIndices k fs)[countLiquid (fs.take j)]? = some (k + j) := by
  induction fs generalizing k j with
  | nil => simp at h
  | cons b fs ih =>
    cases j with
    | zero => simp at h; subst h; simp [thawedIndices]
    | succ j =>
      have := ih (k + 1) j (by simpa using h)
      cases b <;> simp [thawedIndices, this] <;> omega

theorem thawedIndices_mem (fs : List Bool) (k j : Nat) :
    j ∈ thawedIndices k fs ↔ k ≤ j ∧ fs[j - k]? = some true := by
  induction fs generalizing k with
  | nil => simp [thawedIndices]
  | cons b fs ih =>
    have step : k + 1 ≤ j ∧ fs[j - (k + 1)]? = some true ↔
        k < j ∧ (b :: fs)[j - k]? = some true := by
      constructor
      · rintro ⟨h1, h2⟩
        refine ⟨by omega, ?_⟩
        have : j - k = (j - (k + 1)) + 1 := by omega
        rw [this]; simpa using h2
      · rintro ⟨h1, h2⟩
        refine ⟨by omega, ?_⟩
        have : j - k = (j - (k + 1)) + 1 := by omega
        rw [this] at h2; simpa using h2
    cases b with
    | true =>
      simp only [thawedIndices, List.mem_cons, ih, step]
      constructor
      · rintro (rfl | ⟨h1, h2⟩)
        · simp
        · exact ⟨by omega, h2⟩
      · rintro ⟨h1, h2⟩
        by_cases h : j = k
        · exact Or.inl h
        · exact Or.inr ⟨by omega, h2⟩
    | false =>
      simp only [thawedIndices, ih, step]
      constructor
      · rintro ⟨h1, h2⟩; exact ⟨by omega, h2⟩
      · rintro ⟨h1, h2⟩
        refine ⟨?_, h2⟩
        rcases Nat.lt_or_ge k j with h | h
        · exact h
        · have : j = k := by omega
          subst this
          simp at h2

/-! ### C11: container edits -/

theorem eraseIdx_zip {β γ : Type} (as : List β) (bs : List γ) (i : Nat) :
    (as.take i ++ as.drop (i + 1)).zip (bs.take i ++ bs.drop (i + 1)) =
      (as.zip bs).take i ++ (as.zip bs).drop (i + 1) ∨ as.length ≠ bs.length := by
  by_cases h : as.length = bs.length
  · left
    rw [List.zip_append (by simp [h])]
    simp [List.zip_eq_zipWith, List.take_zipWith, List.drop_zipWith]
  · exact Or.inr h

/-! ### C12: copy -/

theorem copyPList_slots (l : PList α) : (copyPList l).slots = l.slots := by
  simp only [copyPList, mkPList, flags, List.map_map]
  induction l.slots with
  | nil => rfl
  | cons s ss ih => simpa using ih

mutual
theorem copy_ok (t : Par α) (h : NoMissing t) :
    ∃ t', copy t = .ok t' ∧ ∀ up, leavesFrom up t' = leavesFrom up t := by
  match t with
  | .scalar s => exact ⟨_, rfl, fun up => by simp [leavesFrom]⟩
  | .plist l => exact ⟨_, rfl, fun up => by simp [leavesFrom, copyPList_slots]⟩
  | .multi subs =>
    obtain ⟨t', h1, h2⟩ := copySubs_ok subs (by simpa [NoMissing] using h)
    exact ⟨.multi t', by simp [copy, h1, Except.map], fun up => by simp [leavesFrom, h2]⟩
theorem copySubs_ok (t : Subs α) (h : NoMissingSubs t) :
    ∃ t', copySubs t = .ok t' ∧ ∀ up, leavesFromSubs up t' = leavesFromSubs up t := by
  match t with
  | .nil => exact ⟨_, rfl, fun up => rfl⟩
  | .cons nm l s rest =>
    simp only [NoMissingSubs] at h
    obtain ⟨s', a1, a2⟩ := copy_ok s h.1
    obtain ⟨r', b1, b2⟩ := copySubs_ok rest h.2
    exact ⟨.cons nm l s' r', by simp [copySubs, a1, b1], fun up => by simp [leavesFromSubs, a2, b2]⟩
  | .missing nm l rest => simp [NoMissingSubs] at h
end

mutual
theorem copy_err (t : Par α) (h : ¬ NoMissing t) : copy t = .error .attribute := by
  match t with
  | .scalar s => simp [NoMissing] at h
  | .plist l => simp [NoMissing] at h
  | .multi subs =>
    simp [copy, copySubs_err subs (by simpa [NoMissing] using h), Except.map]
theorem copySubs_err (t : Subs α) (h : ¬ NoMissingSubs t) : copySubs t = .error .attribute := by
  match t with
  | .nil => simp [NoMissingSubs] at h
  | .cons nm l s rest =>
    simp only [NoMissingSubs] at h
    by_cases hs : NoMissing s
    · obtain ⟨s', a1, _⟩ := copy_ok s hs
      simp [copySubs, a1, copySubs_err rest (fun hr => h ⟨hs, hr⟩)]
    · simp [copySubs, copy_err s hs]
  | .missing nm l rest => rfl
end

mutual
/-- The names and structure survive as well: only bounds, steps and priors are dropped. -/
theorem copy_entries (t t' : Par α) (h : copy t = .ok t') : entries t' = entries t := by
  match t with
  | .scalar s => simp [copy] at h; subst h; rfl
  | .plist l => simp [copy] at h; subst h; simp [entries, copyPList_slots]
  | .multi subs =>
    simp only [copy] at h
    cases hr : copySubs subs with
    | error e => simp [hr, Except.map] at h
    | ok r =>
      simp [hr, Except.map] at h
      subst h
      simpa [entries] using copySubs_entries subs r hr
theorem copySubs_entries (t t' : Subs α) (h : copySubs t = .ok t') : entriesSubs t' = entriesSubs t := by
  match t with
  | .nil => simp [copySubs] at h; subst h; rfl
  | .cons nm l s rest =>
    simp only [copySubs] at h
    cases hs : copy s with
    | error e => simp [hs] at h
    | ok s' =>
      cases hr : copySubs rest with
      | error e => simp [hs, hr] at h
      | ok r' =>
        simp [hs, hr] at h
        subst h
        have hn : NoMissing s := by
          by_cases hn : NoMissing s
          · exact hn
          · rw [copy_err s hn] at hs; simp at hs
        obtain ⟨s'', a1, a2⟩ := copy_ok s hn
        rw [hs] at a1
        cases a1
        simp [entriesSubs, a2, copySubs_entries rest r' hr]
  | .missing nm l rest => simp [copySubs] at h
end

/-! ### C13: step sizes -/

theorem freshSteps_ok [One α] (fs : List Bool) (ss : List α) (h : ss.length = countLiquid fs) :
    ∃ st, freshSteps fs ss = .ok st ∧ st.length = fs.length ∧ liquidArray fs st = ss := by
  induction fs generalizing ss with
  | nil =>
    have : ss = [] := by simpa using h
    subst this
    exact ⟨[], rfl, rfl, rfl⟩
  | cons b fs ih =>
    cases b with
    | true =>
      cases ss with
      | nil => simp at h
      | cons s ss =>
        obtain ⟨st, h1, h2, h3⟩ := ih ss (by simpa using h)
        exact ⟨s :: st, by simp [freshSteps, h1, Except.map], by simp [h2], by simp [liquidArray, h3]⟩
    | false =>
      obtain ⟨st, h1, h2, h3⟩ := ih ss (by simpa using h)
      exact ⟨1 :: st, by simp [freshSteps, h1, Except.map], by simp [h2], by simp [liquidArray, h3]⟩

theorem overwriteSteps_prefix (ss : List α) (k : Nat) (fs : List Bool) (st : List α)
    (n m : Nat) (hfs : fs = List.replicate n true ++ List.replicate m false)
    (hst : st.length = fs.length) (hss : ss.length = k + n) :
    ∃ st', overwriteSteps ss k fs st = (st', none) ∧ st'.length = fs.length ∧
      liquidArray fs st' = ss.drop k := by
  induction n generalizing k fs st with
  | zero =>
    have hf : ∀ (m k : Nat) (st : List α), st.length = m →
        overwriteSteps ss k (List.replicate m false) st = (st, none) ∧
        liquidArray (List.replicate m false) st = [] := by
      intro m
      induction m with
      | zero => intro k st h; simp at h; subst h; simp [overwriteSteps, liquidArray]
      | succ m ih =>
        intro k st h
        cases st with
        | nil => simp at h
        | cons x st =>
          obtain ⟨h1, h2⟩ := ih (k + 1) st (by simpa using h)
          simp [List.replicate_succ, overwriteSteps, liquidArray, h1, h2]
    subst hfs
    obtain ⟨h1, h2⟩ := hf m k st (by simpa using hst)
    refine ⟨st, by simpa using h1, hst, ?_⟩
    rw [List.drop_of_length_le (by omega)]
    simpa using h2
  | succ n ih =>
    subst hfs
    cases st with
    | nil => simp [List.replicate_succ] at hst
    | cons x st =>
      have hk : k < ss.length := by omega
      obtain ⟨st', h1, h2, h3⟩ := ih (k + 1) (List.replicate n true ++ List.replicate m false) st rfl
        (by simpa [List.replicate_succ] using hst) (by omega)
      refine ⟨ss[k] :: st', ?_, by simpa [List.replicate_succ] using h2, ?_⟩
      · simp [List.replicate_succ, overwriteSteps, List.getElem?_eq_getElem hk, h1]
      · simp only [List.replicate_succ, List.cons_append, liquidArray, h3]
        exact List.getElem_cons_drop hk

end Verif.Params
