import Verif.Wgrid.Model
import Mathlib.Tactic.Ring
import Mathlib.Tactic.Linarith
import Mathlib.Tactic.FieldSimp

/-!
# C179: PSF models of WISE by place and their cache
-/

namespace Verif.Wgrid

variable {P : Type}

theorem mod100_shift (n : Int) : mod100 ((n : ℚ) + 50) = 50 ↔ (100 : Int) ∣ n := by
  unfold mod100
  constructor
  · intro h
    have : (n : ℚ) = ((100 * ⌊((n : ℚ) + 50) / 100⌋ : Int) : ℚ) := by
      push_cast
      linarith
    exact ⟨_, by exact_mod_cast this⟩
  · rintro ⟨k, rfl⟩
    have : ⌊(((100 * k : Int) : ℚ) + 50) / 100⌋ = k := by
      rw [Int.floor_eq_iff]
      push_cast
      constructor <;> linarith
    rw [this]
    push_cast
    ring

/-- **The grid**: from 1 to 899 a coordinate whose whole part is not a multiple of 100 raises AssertionError; others give the centre of their cell of 100 pixels, the first or the
last for coordinates outside. -/
theorem C179_grid (n : Int) :
    grid n = if 0 < n ∧ n < 900 ∧ ¬ (100 : Int) ∣ n then .error .assertion else .ok (((min (max (100 * (n / 100) + 50) 50) 950 : Int) : ℚ)) := by
  have e : (n : ℚ) / 100 * 100 + 50 = n + 50 := by ring
  unfold grid
  rw [e]
  dsimp only
  by_cases h0 : n ≤ 0
  · have h1 : (n : ℚ) ≤ 0 := by exact_mod_cast h0
    have hc : clip ((n : ℚ) + 50) = 50 := by
      unfold clip
      rw [max_eq_right (by linarith), min_eq_left (by norm_num)]
    have hm : min (max (100 * (n / 100) + 50) 50) 950 = (50 : Int) := by omega
    rw [hc, if_pos (by decide +kernel), if_neg (by omega), hm]
    norm_num
  · by_cases h9 : 900 ≤ n
    · have h1 : (900 : ℚ) ≤ n := by exact_mod_cast h9
      have hc : clip ((n : ℚ) + 50) = 950 := by
        unfold clip
        rw [max_eq_left (by linarith), min_eq_right (by linarith)]
      have hm : min (max (100 * (n / 100) + 50) 50) 950 = (950 : Int) := by omega
      rw [hc, if_pos (by decide +kernel), if_neg (by omega), hm]
      norm_num
    · have h1 : (0 : ℚ) ≤ n := by exact_mod_cast (by omega : (0 : Int) ≤ n)
      have h2 : (n : ℚ) ≤ 900 := by exact_mod_cast (by omega : n ≤ (900 : Int))
      have hc : clip ((n : ℚ) + 50) = n + 50 := by
        unfold clip
        rw [max_eq_left (by linarith), min_eq_left (by linarith)]
      rw [hc]
      by_cases hd : (100 : Int) ∣ n
      · rw [if_pos ((mod100_shift n).mpr hd), if_neg (by tauto)]
        have hm : min (max (100 * (n / 100) + 50) 50) 950 = n + 50 := by omega
        rw [hm]
        push_cast
        rfl
      · rw [if_neg (fun h => hd ((mod100_shift n).mp h)), if_pos ⟨by omega, by omega, hd⟩]

theorem find_mem (key : Key) (l : Cache P) (p : P) (h : find key l = some p) : (key, p) ∈ l := by
  induction l with
  | nil => cases h
  | cons e l ih =>
    obtain ⟨k, q⟩ := e
    unfold find at h
    by_cases hk : k = key
    · rw [if_pos hk] at h
      cases h
      rw [hk]
      exact List.mem_cons_self
    · rw [if_neg hk] at h
      exact List.mem_cons_of_mem _ (ih h)

theorem find_none (key : Key) (l : Cache P) (h : find key l = none) : key ∉ l.map (·.1) := by
  induction l with
  | nil => simp
  | cons e l ih =>
    obtain ⟨k, q⟩ := e
    unfold find at h
    by_cases hk : k = key
    · rw [if_pos hk] at h
      cases h
    · rw [if_neg hk] at h
      rw [List.map_cons, List.mem_cons, not_or]
      exact ⟨fun e => hk e.symm, ih h⟩

/-- All entries are what would be built, each key once. -/
def Sound (build : Key → Except PyErr P) (l : Cache P) : Prop := (∀ e ∈ l, build e.1 = .ok e.2) ∧ (l.map (·.1)).Nodup

theorem getPsf_sound (build : Key → Except PyErr P) (l : Cache P) (h : Sound build l) (c : Call) :
    Sound build (getPsf build l c).1 ∧ (getPsf build l c).2 = (getPsf build [] c).2 := by
  unfold getPsf
  rcases place c.xy with e | xy
  · exact ⟨h, rfl⟩
  · dsimp only [find]
    generalize (⟨c.band, c.pixpsf, xy, c.positive⟩ : Key) = key
    rcases hf : find key l with _ | p
    · dsimp only
      rcases hb : build key with e | p
      · exact ⟨h, rfl⟩
      · refine ⟨⟨fun e he => ?_, ?_⟩, rfl⟩
        · rcases List.mem_cons.mp he with rfl | he
          · exact hb
          · exact h.1 e he
        · exact List.nodup_cons.mpr ⟨find_none key l hf, h.2⟩
    · dsimp only
      have := h.1 _ (find_mem key l p hf)
      dsimp only at this
      rw [this]
      exact ⟨h, rfl⟩

/-- **The cache**: in any sequence of calls with a cache that was empty every result or exception is that of the same call without cache, and no model is kept twice. -/
theorem C179_cache (build : Key → Except PyErr P) (calls : List Call) :
    (run build [] calls).2 = calls.map (fun c => (getPsf build [] c).2) ∧ ((run build [] calls).1.map (·.1)).Nodup := by
  have key : ∀ (calls : List Call) (l : Cache P), Sound build l →
      (run build l calls).2 = calls.map (fun c => (getPsf build [] c).2) ∧ Sound build (run build l calls).1 := by
    intro calls
    induction calls with
    | nil => exact fun l h => ⟨rfl, h⟩
    | cons c calls ih =>
      intro l h
      obtain ⟨h1, h2⟩ := getPsf_sound build l h c
      obtain ⟨h3, h4⟩ := ih _ h1
      refine ⟨?_, h4⟩
      unfold run
      dsimp only
      rw [h3, h2, List.map_cons]
  obtain ⟨h1, h2⟩ := key calls [] ⟨by simp, by simp⟩
  exact ⟨h1, h2.2⟩

theorem getPsf_keeps (build : Key → Except PyErr P) (l : Cache P) (c : Call) (key : Key) (p : P) (h : find key l = some p) : find key (getPsf build l c).1 = some p := by
  unfold getPsf
  rcases place c.xy with e | xy
  · exact h
  · dsimp only
    generalize (⟨c.band, c.pixpsf, xy, c.positive⟩ : Key) = key'
    rcases hf : find key' l with _ | q
    · dsimp only
      rcases build key' with e | q
      · exact h
      · dsimp only
        rw [find, if_neg, h]
        rintro rfl
        rw [h] at hf
        cases hf
    · exact h

theorem run_keeps (build : Key → Except PyErr P) (calls : List Call) : ∀ (l : Cache P) (key : Key) (p : P), find key l = some p → find key (run build l calls).1 = some p := by
  induction calls with
  | nil => exact fun l key p h => h
  | cons c calls ih => exact fun l key p h => ih _ key p (getPsf_keeps build l c key p h)

theorem getPsf_found (build : Key → Except PyErr P) (l : Cache P) (c : Call) (p : P) (h : (getPsf build l c).2 = .ok p) :
    ∃ xy, place c.xy = .ok xy ∧ find ⟨c.band, c.pixpsf, xy, c.positive⟩ (getPsf build l c).1 = some p := by
  revert h
  unfold getPsf
  rcases place c.xy with e | xy
  · intro h
    cases h
  · intro h
    refine ⟨xy, rfl, ?_⟩
    dsimp only at h ⊢
    generalize (⟨c.band, c.pixpsf, xy, c.positive⟩ : Key) = key at h ⊢
    rcases hf : find key l with _ | q
    · rw [hf] at h
      dsimp only at h ⊢
      rcases hb : build key with e | q
      · rw [hb] at h
        cases h
      · rw [hb] at h
        cases h
        dsimp only
        rw [find, if_pos rfl]
    · rw [hf] at h
      cases h
      dsimp only
      rw [hf]

/-- **A model that was made is not made again**: after a call with a result, and any further calls, with results or failures, the same call on the cache changes nothing and does
not build, whatever `build` would do then. -/
theorem C179_again (build build' : Key → Except PyErr P) (l : Cache P) (c : Call) (more : List Call) (p : P) (h : (getPsf build l c).2 = .ok p) :
    getPsf build' (run build (getPsf build l c).1 more).1 c = ((run build (getPsf build l c).1 more).1, .ok p) := by
  obtain ⟨xy, h1, h2⟩ := getPsf_found build l c p h
  have h3 := run_keeps build more _ _ _ h2
  generalize (run build (getPsf build l c).1 more).1 = l' at h3 ⊢
  unfold getPsf
  rw [h1]
  dsimp only
  rw [h3]

/-! A file for every place, of the band times 1000 plus the first coordinate. -/

def exBuild (k : Key) : Except PyErr ℚ := if k.band = 5 then .error .value else .ok (k.band * 1000 + (k.xy.getD (500, 500)).1)

-- the centre of the image, 512, is refused; 500 and 1000 are not
example : grid 512 = .error .assertion ∧ grid 500 = .ok 550 ∧ grid 1000 = .ok 950 ∧ grid (-3) = .ok 50 := by
  refine ⟨?_, ?_, ?_, ?_⟩
  · rw [C179_grid, if_pos (by decide)]
  · rw [C179_grid, if_neg (by decide)]
    norm_num
  · rw [C179_grid, if_neg (by decide)]
    norm_num
  · rw [C179_grid, if_neg (by decide)]
    norm_num

example : (run exBuild [] [⟨1, true, some (500, 200), true⟩, ⟨5, true, none, true⟩, ⟨1, true, some (500, 200), true⟩, ⟨1, true, some (512, 200), true⟩]).2 =
    [.ok 1550, .error .value, .ok 1550, .error .assertion] := by decide +kernel

example : (getPsf (fun _ => .error .runtime) (run exBuild (getPsf exBuild [] ⟨1, true, some (500, 200), true⟩).1 [⟨5, true, none, true⟩]).1 ⟨1, true, some (500, 200), true⟩).2 = .ok 1550 := by
  rw [C179_again exBuild (fun _ => .error .runtime) [] ⟨1, true, some (500, 200), true⟩ [⟨5, true, none, true⟩] 1550 (by decide +kernel)]

end Verif.Wgrid
