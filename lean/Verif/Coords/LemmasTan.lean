import Verif.Coords.SpecTan
import Verif.Params.Lemmas
import Mathlib.Tactic.Ring

namespace Verif.Coords

open Verif Verif.Params

variable {R : Type}

theorem things_length (w : TanWcs R) : w.things.length = 10 := rfl

theorem setThing_spec (w : TanWcs R) (k : Nat) (v : R) (h : k < 10) :
    ∃ w', w.setThing k v = .ok w' ∧ w'.things = w.things.set k v ∧ w'.liquid = w.liquid ∧
      w'.cd = w.cd ∧ w'.cdInverse = w.cdInverse ∧ w'.pixscale = w.pixscale := by
  rcases k with _ | _ | _ | _ | _ | _ | _ | _ | _ | _ | k
  all_goals first
    | exact ⟨_, rfl, rfl, rfl, rfl, rfl, rfl⟩
    | omega

theorem getThing_spec (w : TanWcs R) (k : Nat) (h : k < 10) : ∃ x, w.getThing k = .ok x ∧ w.things[k]? = some x := by
  rcases k with _ | _ | _ | _ | _ | _ | _ | _ | _ | _ | k
  all_goals first
    | exact ⟨_, rfl, rfl⟩
    | omega

theorem setNth_index (fs : List Bool) (vs : List R) (hl : vs.length = fs.length) (i : Int) (v : R) :
    match indexLiquid fs i with
    | .ok ii => 0 ≤ i ∧ ii < fs.length ∧ setNth (fs.zip vs) i.toNat v = fs.zip (vs.set ii v)
    | .error _ => 0 ≤ i → setNth (fs.zip vs) i.toNat v = fs.zip vs := by
  induction fs generalizing vs i with
  | nil =>
    simp [indexLiquid, setNth]
  | cons f fs ih =>
    cases vs with
    | nil => simp at hl
    | cons a vs =>
      have hl' : vs.length = fs.length := by simpa using hl
      cases f with
      | false =>
        have := ih vs hl' i
        simp only [indexLiquid, Bool.false_eq_true, if_false]
        cases hi : indexLiquid fs i with
        | ok ii =>
          rw [hi] at this
          obtain ⟨h0, h1, h2⟩ := this
          show 0 ≤ i ∧ ii + 1 < _ ∧ _
          refine ⟨h0, by simpa using h1, ?_⟩
          simp [setNth, h2]
        | error e =>
          rw [hi] at this
          show 0 ≤ i → _
          intro h0
          simp [setNth, this h0]
      | true =>
        simp only [indexLiquid, if_true]
        by_cases hz : i = 0
        · subst hz
          simp [setNth]
        · rw [if_neg hz]
          have := ih vs hl' (i - 1)
          cases hi : indexLiquid fs (i - 1) with
          | ok ii =>
            rw [hi] at this
            obtain ⟨h0, h1, h2⟩ := this
            show 0 ≤ i ∧ ii + 1 < _ ∧ _
            refine ⟨by omega, by simpa using h1, ?_⟩
            have e : i.toNat = (i - 1).toNat + 1 := by omega
            rw [e]
            simp only [List.zip_cons_cons, List.set_cons_succ, setNth, h2]
          | error e =>
            rw [hi] at this
            show 0 ≤ i → _
            intro h0
            have e : i.toNat = (i - 1).toNat + 1 := by omega
            rw [e]
            simp only [List.zip_cons_cons, setNth, this (by omega)]

theorem setParam_spec (w : TanWcs R) (hl : w.liquid.length = 10) (i : Int) (v : R) :
    w.liquid.zip (w.setParam i v).1.things = (if i < 0 then w.liquid.zip w.things else setNth (w.liquid.zip w.things) i.toNat v) ∧
    (w.setParam i v).1.liquid = w.liquid ∧ (w.setParam i v).1.cd = w.cd ∧ (w.setParam i v).1.cdInverse = w.cdInverse ∧
      (w.setParam i v).1.pixscale = w.pixscale := by
  have key := setNth_index w.liquid w.things (by rw [hl]; rfl) i v
  unfold TanWcs.setParam
  cases hi : indexLiquid w.liquid i with
  | error e =>
    rw [hi] at key
    refine ⟨?_, rfl, rfl, rfl, rfl⟩
    by_cases h : i < 0
    · rw [if_pos h]
    · rw [if_neg h]; exact (key (by omega)).symm
  | ok ii =>
    rw [hi] at key
    obtain ⟨h0, h1, h2⟩ := key
    obtain ⟨x, hx, _⟩ := getThing_spec w ii (by omega)
    obtain ⟨w', e1, e2, e3, e4, e5, e6⟩ := setThing_spec w ii v (by omega)
    simp only [hx, e1]
    refine ⟨?_, e3, e4, e5, e6⟩
    rw [if_neg (by omega), h2, e2]

theorem setLoop_spec (fs : List Bool) (w : TanWcs R) (pre post p : List R) (k : Nat) (hk : pre.length = k)
    (hw : w.things = pre ++ post) (hl : fs.length = post.length) :
    ∃ post', (setLoop w k fs p).1.things = pre ++ post' ∧ fs.zip post' = assign (fs.zip post) p ∧ post'.length = post.length ∧
      (setLoop w k fs p).1.liquid = w.liquid ∧ (setLoop w k fs p).1.cd = w.cd ∧ (setLoop w k fs p).1.cdInverse = w.cdInverse ∧
      (setLoop w k fs p).1.pixscale = w.pixscale ∧
      (setLoop w k fs p).2 = (if p.length < countLiquid fs then some .index else none) := by
  induction fs generalizing w pre post p k with
  | nil =>
    refine ⟨post, hw, ?_, rfl, rfl, rfl, rfl, rfl, ?_⟩
    · simp [assign]
    · simp [setLoop]
  | cons f fs ih =>
    cases post with
    | nil => simp at hl
    | cons a post =>
      have hl' : fs.length = post.length := by simpa using hl
      have hlen : pre.length + (post.length + 1) = 10 := by
        have := things_length w
        rw [hw] at this
        simpa using this
      cases f with
      | false =>
        obtain ⟨q, h1, h2, h3, h4⟩ := ih w (pre ++ [a]) post p (k + 1) (by simp [hk]) (by simp [hw]) hl'
        refine ⟨a :: q, ?_, ?_, by simp [h3], ?_⟩
        · simpa [setLoop] using h1
        · simp [assign, h2]
        · simpa [setLoop] using h4
      | true =>
        cases p with
        | nil =>
          refine ⟨a :: post, hw, ?_, rfl, rfl, rfl, rfl, rfl, ?_⟩
          · simp [assign]
          · simp [setLoop]
        | cons x p =>
          obtain ⟨w', e1, e2, e3, e4, e5, e6⟩ := setThing_spec w k x (by omega)
          have e2' : w'.things = (pre ++ [x]) ++ post := by
            rw [e2, hw, List.set_append_right _ _ (by omega)]
            simp [hk]
          obtain ⟨q, h1, h2, h3, h4, h5, h6, h7, h8⟩ := ih w' (pre ++ [x]) post p (k + 1) (by simp [hk]) e2' hl'
          refine ⟨x :: q, ?_, ?_, by simp [h3], ?_⟩
          · simpa [setLoop, e1] using h1
          · simp [assign, h2]
          · simp only [setLoop, e1]
            refine ⟨h4.trans e3, h5.trans e4, h6.trans e5, h7.trans e6, ?_⟩
            rw [h8]
            simp

theorem zip_set_fst (fs : List Bool) (vs : List R) (hl : vs.length = fs.length) (i : Nat) (b : Bool) :
    (fs.set i b).zip vs = (fs.zip vs).modify i (fun e => (b, e.2)) := by
  induction fs generalizing vs i with
  | nil => cases i <;> simp
  | cons f fs ih =>
    cases vs with
    | nil => simp at hl
    | cons a vs =>
      cases i with
      | zero => simp
      | succ i => simpa using ih vs (by simpa using hl) i

theorem zip_set_snd (fs : List Bool) (vs : List R) (hl : vs.length = fs.length) (i : Nat) (x : R) :
    fs.zip (vs.set i x) = (fs.zip vs).modify i (fun e => (e.1, x)) := by
  induction fs generalizing vs i with
  | nil => cases i <;> simp
  | cons f fs ih =>
    cases vs with
    | nil => simp at hl
    | cons a vs =>
      cases i with
      | zero => simp
      | succ i => simpa using ih vs (by simpa using hl) i

theorem tanStep_spec (w : TanWcs R) (hl : w.liquid.length = 10) (op : TanOp R) :
    (tanStep w op).liquid.zip (tanStep w op).things = specStep (w.liquid.zip w.things) op ∧
    (tanStep w op).liquid.length = 10 ∧ (tanStep w op).cd = w.cd ∧ (tanStep w op).cdInverse = w.cdInverse ∧
      (tanStep w op).pixscale = w.pixscale := by
  cases op with
  | setParam i v =>
    obtain ⟨h1, h2, h3⟩ := setParam_spec w hl i v
    simp only [tanStep, specStep]
    exact ⟨by rw [h2]; exact h1, by rw [h2]; exact hl, h3⟩
  | setParams p =>
    obtain ⟨q, h1, h2, _, h4, h5, h6, h7, _⟩ := setLoop_spec w.liquid w [] w.things p 0 rfl rfl (by rw [hl]; rfl)
    simp only [tanStep, specStep, TanWcs.setParams]
    refine ⟨?_, by rw [h4]; exact hl, h5, h6, h7⟩
    rw [h4, h1]
    exact h2
  | setFlag i b =>
    refine ⟨zip_set_fst w.liquid w.things (by rw [hl]; rfl) i b, ?_, rfl, rfl, rfl⟩
    simpa [tanStep, TanWcs.setFlag] using hl
  | setX0Y0 x y =>
    refine ⟨?_, hl, rfl, rfl, rfl⟩
    simp only [tanStep, specStep]
    rw [← zip_set_snd w.liquid w.things (by rw [hl]; rfl) 8 x, ← zip_set_snd w.liquid _ (by rw [hl]; rfl) 9 y]
    rfl

theorem tanRun_spec (ops : List (TanOp R)) (w : TanWcs R) (hl : w.liquid.length = 10) :
    (tanRun w ops).liquid.zip (tanRun w ops).things = ops.foldl specStep (w.liquid.zip w.things) ∧
    (tanRun w ops).liquid.length = 10 ∧ (tanRun w ops).cd = w.cd ∧ (tanRun w ops).cdInverse = w.cdInverse ∧
      (tanRun w ops).pixscale = w.pixscale := by
  induction ops generalizing w with
  | nil => exact ⟨rfl, hl, rfl, rfl, rfl⟩
  | cons op ops ih =>
    obtain ⟨h1, h2, h3, h4, h5⟩ := tanStep_spec w hl op
    obtain ⟨k1, k2, k3, k4, k5⟩ := ih (tanStep w op) h2
    refine ⟨?_, k2, k3.trans h3, k4.trans h4, k5.trans h5⟩
    rw [List.foldl_cons, ← h1]
    exact k1

theorem thawed_zip (fs : List Bool) (vs : List R) : thawed (fs.zip vs) = liquidArray fs vs := by
  induction fs generalizing vs with
  | nil => simp [thawed, liquidArray]
  | cons f fs ih =>
    cases vs with
    | nil => cases f <;> simp [thawed, liquidArray]
    | cons a vs =>
      cases f
      · simpa [thawed, liquidArray] using ih vs
      · simpa [thawed, liquidArray] using ih vs

theorem map_snd_zip (fs : List Bool) (vs : List R) (hl : vs.length = fs.length) : (fs.zip vs).map (·.2) = vs := by
  have := List.map_snd_zip (l₁ := fs) (l₂ := vs) (by omega)
  simpa using this

/-- A frozen entry is not touched. -/
theorem setNth_frozen (s : List (Bool × R)) (i : Nat) (v : R) (k : Nat) (x : R) (h : s[k]? = some (false, x)) :
    (setNth s i v)[k]? = some (false, x) := by
  induction s generalizing i k with
  | nil => simp at h
  | cons e s ih =>
    obtain ⟨f, a⟩ := e
    cases f with
    | false =>
      cases k with
      | zero => simpa [setNth] using h
      | succ k => simpa [setNth] using ih i k (by simpa using h)
    | true =>
      cases k with
      | zero => simp at h
      | succ k =>
        cases i with
        | zero => simpa [setNth] using h
        | succ i => simpa [setNth] using ih i k (by simpa using h)

theorem assign_frozen (s : List (Bool × R)) (p : List R) (k : Nat) (x : R) (h : s[k]? = some (false, x)) :
    (assign s p)[k]? = some (false, x) := by
  induction s generalizing p k with
  | nil => simp at h
  | cons e s ih =>
    obtain ⟨f, a⟩ := e
    cases f with
    | false =>
      cases k with
      | zero => simpa [assign] using h
      | succ k => simpa [assign] using ih p k (by simpa using h)
    | true =>
      cases k with
      | zero => simp at h
      | succ k =>
        cases p with
        | nil => simpa [assign] using h
        | cons y p => simpa [assign] using ih p k (by simpa using h)

theorem specStep_frozen (s : List (Bool × R)) (op : TanOp R) (k : Nat) (hk : k ∈ [4, 5, 6, 7]) (hop : sparesMatrix op) (x : R)
    (h : s[k]? = some (false, x)) : (specStep s op)[k]? = some (false, x) := by
  have hk' : k < 8 := by
    simp at hk; omega
  cases op with
  | setParam i v =>
    simp only [specStep]
    split
    · exact h
    · exact setNth_frozen s _ v k x h
  | setParams p => exact assign_frozen s p k x h
  | setFlag i b =>
    simp only [specStep, List.getElem?_modify]
    by_cases hi : i = k
    · subst hi
      cases b with
      | false => simp [h]
      | true => exact absurd hk (hop rfl)
    · simp [hi, h]
  | setX0Y0 a b =>
    simp only [specStep, List.getElem?_modify]
    simp [h, show ¬ 8 = k by omega, show ¬ 9 = k by omega]

theorem run_frozen (ops : List (TanOp R)) (s : List (Bool × R)) (k : Nat) (hk : k ∈ [4, 5, 6, 7]) (hops : ∀ op ∈ ops, sparesMatrix op) (x : R)
    (h : s[k]? = some (false, x)) : (ops.foldl specStep s)[k]? = some (false, x) := by
  induction ops generalizing s with
  | nil => exact h
  | cons op ops ih =>
    exact ih (specStep s op) (fun o ho => hops o (List.mem_cons_of_mem _ ho))
      (specStep_frozen s op k hk (hops op List.mem_cons_self) x h)

end Verif.Coords
