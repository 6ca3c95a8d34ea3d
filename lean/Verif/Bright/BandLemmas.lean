import Verif.Bright.Model

/-! # Lemmas on brightnesses in several bands -/

namespace Verif.Bright

open Verif

variable {α β γ : Type}

/-- What the constructor establishes: distinct bands, one value and flag each, and the class knows their names. -/
structure WF (c : Cls) (o : MB α) : Prop where
  nodup : o.order.Nodup
  vals : o.vals.length = o.order.length
  flags : o.liquid.length = o.order.length
  props : ∀ b ∈ o.order, b ∈ c.props

theorem mem_addNames (c : Cls) (l : List String) (b : String) : b ∈ (c.addNames l).props ↔ b ∈ c.props ∨ b ∈ l := by
  simp only [Cls.addNames, List.mem_append, List.mem_filter, List.contains_eq_mem, Bool.not_eq_true', decide_eq_false_iff_not]
  by_cases h : b ∈ c.props <;> simp [h]

theorem addNames_eq (c : Cls) (l : List String) (h : ∀ b ∈ l, b ∈ c.props) : c.addNames l = c := by
  cases c with
  | mk p =>
  have : l.filter (fun n => !p.contains n) = [] := by
    rw [List.filter_eq_nil_iff]
    intro a ha
    simpa using h a ha
  simp only [Cls.addNames, this, List.append_nil]

theorem WF.mono {c c' : Cls} {o : MB α} (h : WF c o) (hc : ∀ b ∈ c.props, b ∈ c'.props) : WF c' o :=
  ⟨h.nodup, h.vals, h.flags, fun b hb => hc b (h.props b hb)⟩

theorem getBand_in {c : Cls} {o : MB α} (h : WF c o) {b : String} (hb : b ∈ o.order) :
    ∃ hi : o.order.idxOf b < o.vals.length, getBand c o b = .ok (o.vals[o.order.idxOf b]) := by
  have hi : o.order.idxOf b < o.vals.length := by rw [h.vals]; exact List.idxOf_lt_length_of_mem hb
  refine ⟨hi, ?_⟩
  simp [getBand, h.props b hb, hb, List.getElem?_eq_getElem hi]

theorem lookup_mem (kwargs : List (String × α)) (k : String) (h : k ∈ kwargs.map Prod.fst) : ∃ v, kwargs.lookup k = some v := by
  induction kwargs with
  | nil => simp at h
  | cons p t ih =>
    obtain ⟨k', v⟩ := p
    by_cases hk : k = k'
    · subst hk; exact ⟨v, by simp [List.lookup]⟩
    · have : (k == k') = false := by simpa using hk
      simp only [List.lookup, this]
      apply ih
      simpa [hk] using h

/-- A total loop. -/
theorem mapM_ok (l : List γ) (f : γ → Except PyErr β) (g : γ → β) (h : ∀ x ∈ l, f x = .ok (g x)) : l.mapM f = .ok (l.map g) := by
  induction l with
  | nil => rfl
  | cons x t ih =>
    rw [List.mapM_cons, h x (by simp), ih (fun y hy => h y (by simp [hy]))]
    rfl

/-- The constructor with an accepted order. -/
theorem mk_ok (c : Cls) (kwargs : List (String × α)) (order : List String) (g : String → α)
    (hlen : kwargs.length = order.length) (h1 : ∀ k ∈ order, k ∈ kwargs.map Prod.fst) (h2 : ∀ k ∈ kwargs.map Prod.fst, k ∈ order)
    (hg : ∀ k ∈ order, kwargs.lookup k = some (g k)) :
    mk c kwargs (some order) = (c.addNames order, .ok ⟨order, order.map g, List.replicate order.length true, []⟩) := by
  unfold mk
  simp only
  rw [if_neg (by simp [hlen]), if_neg, mapM_ok order (kw kwargs) g (fun k hk => by simp [kw, hg k hk])]
  · simp
  · simp only [Bool.not_eq_true', Bool.not_eq_false, Bool.and_eq_true, List.all_eq_true, List.contains_eq_mem, decide_eq_true_eq]
    exact ⟨h1, h2⟩

theorem wf_new (c : Cls) (order : List String) (vals : List α) (hv : vals.length = order.length) (hn : order.Nodup) :
    WF (c.addNames order) ⟨order, vals, List.replicate order.length true, []⟩ :=
  ⟨hn, hv, by simp, fun b hb => (mem_addNames c order b).mpr (.inr hb)⟩

theorem getBand_new (c : Cls) (order : List String) (g : String → α) (fl : List Bool) (at' : List (String × α)) (b : String)
    (hb : b ∈ order) : getBand (c.addNames order) ⟨order, order.map g, fl, at'⟩ b = .ok (g b) := by
  have hp : b ∈ (c.addNames order).props := (mem_addNames c order b).mpr (.inr hb)
  have hi : order.idxOf b < order.length := List.idxOf_lt_length_of_mem hb
  simp [getBand, hp, hb, List.getElem?_eq_getElem hi]

theorem lookup_map_self (l : List String) (g : String → β) (k : String) (h : k ∈ l) :
    (l.map (fun b => (b, g b))).lookup k = some (g k) := by
  induction l with
  | nil => simp at h
  | cons x t ih =>
    by_cases hk : k = x
    · subst hk; simp
    · have : (k == x) = false := by simpa using hk
      simp only [List.map_cons, List.lookup, this]
      exact ih (by simpa [hk] using h)

/-- An operation by bands. -/
theorem perBand_ok (c : Cls) (o : MB α) (f : String → Except PyErr β) (g : String → β)
    (hf : ∀ b ∈ o.order, f b = .ok (g b)) :
    perBand c o f = (c.addNames o.order, .ok ⟨o.order, o.order.map g, List.replicate o.order.length true, []⟩) := by
  unfold perBand
  rw [mapM_ok o.order _ (fun b => (b, g b)) (fun b hb => by simp [hf b hb, Except.map])]
  exact mk_ok c _ o.order g (by simp) (by simp) (by simp) (fun k hk => lookup_map_self o.order g k hk)

/-- An operation by bands fails if one of the bands does. -/
theorem mapM_err (l : List γ) (f : γ → Except PyErr β) (x : γ) (hx : x ∈ l) (e : PyErr) (h : f x = .error e) :
    ∃ e', l.mapM f = .error e' := by
  induction l with
  | nil => simp at hx
  | cons y t ih =>
    rw [List.mapM_cons]
    rcases List.mem_cons.mp hx with rfl | hx
    · exact ⟨e, by rw [h]; rfl⟩
    · cases hy : f y with
      | error e' => exact ⟨e', rfl⟩
      | ok v =>
        obtain ⟨e', h'⟩ := ih hx
        exact ⟨e', by rw [h']; rfl⟩

end Verif.Bright
