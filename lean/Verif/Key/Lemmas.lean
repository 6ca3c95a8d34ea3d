import Verif.Key.Spec

namespace Verif.Hashed

open Spec

variable {R : Type}

theorem ofList_inj (a b : List (Key R)) (h : Keys.ofList a = Keys.ofList b) : a = b := by
  induction a generalizing b with
  | nil => cases b with
    | nil => rfl
    | cons _ _ => cases h
  | cons x a ih => cases b with
    | nil => cases h
    | cons y b =>
      simp only [Keys.ofList, Keys.cons.injEq] at h
      rw [h.1, ih b h.2]

theorem nums_inj (a b : List R) (h : a.map Key.num = b.map Key.num) : a = b :=
  List.map_inj_right (fun x y e => by cases e; rfl) |>.1 h

/-- Square images with the same pixels in the same order are equal. -/
theorem flatten_square (a b : List (List R)) (ha : ∀ r ∈ a, r.length = a.length) (hb : ∀ r ∈ b, r.length = b.length)
    (h : a.flatten = b.flatten) : a = b := by
  have len : ∀ (l : List (List R)) (n : Nat), (∀ r ∈ l, r.length = n) → l.flatten.length = l.length * n := by
    intro l n hl
    induction l with
    | nil => simp
    | cons r l ih =>
      rw [List.flatten_cons, List.length_append, ih (fun r hr => hl r (by simp [hr])), hl r (by simp), List.length_cons, Nat.add_mul]
      omega
  have hl : a.length = b.length := by
    have h1 := len a _ ha
    have h2 := len b _ hb
    rw [h, h2] at h1
    exact (Nat.mul_self_inj.1 h1).symm
  have main : ∀ (n : Nat) (a b : List (List R)), a.length = b.length → (∀ r ∈ a, r.length = n) → (∀ r ∈ b, r.length = n) → a.flatten = b.flatten → a = b := by
    intro n a
    induction a with
    | nil => intro b h1 _ _ _; exact (List.length_eq_zero_iff.1 h1.symm).symm
    | cons r a ih =>
      intro b h1 h2 h3 h4
      cases b with
      | nil => simp at h1
      | cons s b =>
        rw [List.flatten_cons, List.flatten_cons] at h4
        have hrs : r.length = s.length := by rw [h2 r (by simp), h3 s (by simp)]
        obtain ⟨e1, e2⟩ := List.append_inj h4 hrs
        rw [e1, ih b (by simpa using h1) (fun r hr => h2 r (by simp [hr])) (fun r hr => h3 r (by simp [hr])) e2]
  exact main a.length a b hl ha (fun r hr => (hb r hr).trans hl.symm) h

/-- Which of the branches of `key` made a key that starts with a string. -/
theorem notin (s : String) (h : s ∉ reserved) : s ≠ "NullWCS" ∧ s ≠ "PixelizedPSF" ∧ s ≠ "PixelizedPsfEx" ∧ s ≠ "ShiftedPsf" ∧ s ≠ "ScaledPhotoCal" ∧
    s ≠ "ScaledWcs" ∧ s ≠ "ShiftedWcs" := by
  simpa [reserved] using h

mutual
theorem key_inj (one : R) (c : Conventions R) : ∀ a b : Obj R, Keeps one c a → Keeps one c b → a.key = b.key → a = b
  | .list cls vals attrs, b, ha, hb, h => by
    unfold Keeps at ha
    have hn := notin cls ha.1
    cases b with
    | list cls' vals' attrs' =>
      unfold Keeps at hb
      simp only [Obj.key, Keys.cons.injEq, Key.str.injEq] at h
      obtain ⟨rfl, h2⟩ := h
      rw [nums_inj _ _ (ofList_inj _ _ h2), ha.2.2, hb.2.2]
    | multi cls' subs' own' =>
      unfold Keeps at hb
      simp only [Obj.key, Keys.cons.injEq, Key.str.injEq] at h
      obtain ⟨rfl, h2⟩ := h
      exact absurd (ha.2.1.symm.trans hb.2.1) (by decide)
    | wrapper real own => unfold Keeps at hb; exact hb.elim
    | fitsWcs => simp [Obj.key, Keys.ofList] at h
    | _ => simp only [Obj.key, Keys.ofList, Keys.cons.injEq, Key.str.injEq] at h; simp [h.1] at hn
  | .multi cls subs own, b, ha, hb, h => by
    unfold Keeps at ha
    have hn := notin cls ha.1
    cases b with
    | list cls' vals' attrs' =>
      unfold Keeps at hb
      simp only [Obj.key, Keys.cons.injEq, Key.str.injEq] at h
      obtain ⟨rfl, h2⟩ := h
      exact absurd (ha.2.1.symm.trans hb.2.1) (by decide)
    | multi cls' subs' own' =>
      unfold Keeps at hb
      simp only [Obj.key, Keys.cons.injEq, Key.str.injEq] at h
      obtain ⟨rfl, h2⟩ := h
      rw [keys_inj one c subs subs' ha.2.2.2 hb.2.2.2 h2, ha.2.2.1, hb.2.2.1]
    | wrapper real own => unfold Keeps at hb; exact hb.elim
    | fitsWcs => simp [Obj.key, Keys.ofList] at h
    | _ => simp only [Obj.key, Keys.ofList, Keys.cons.injEq, Key.str.injEq] at h; simp [h.1] at hn
  | .nullWcs dx dy ps, b, ha, hb, h => by
    cases b with
    | list cls' vals' attrs' =>
      unfold Keeps at hb; have hn := notin cls' hb.1
      simp only [Obj.key, Keys.ofList, Keys.cons.injEq, Key.str.injEq] at h; simp [← h.1] at hn
    | multi cls' subs' own' =>
      unfold Keeps at hb; have hn := notin cls' hb.1
      simp only [Obj.key, Keys.ofList, Keys.cons.injEq, Key.str.injEq] at h; simp [← h.1] at hn
    | nullWcs dx' dy' ps' =>
      unfold Keeps at ha hb
      simp only [Obj.key, Keys.ofList, Keys.cons.injEq, Key.num.injEq, true_and, and_true] at h
      rw [h.1, h.2, ha, hb]
    | wrapper real own => unfold Keeps at hb; exact hb.elim
    | fitsWcs => simp [Obj.key, Keys.ofList] at h
    | _ => simp [Obj.key, Keys.ofList] at h
  | .fitsWcs x0 y0 w ct, b, ha, hb, h => by
    cases b with
    | fitsWcs x0' y0' w' ct' =>
      unfold Keeps at ha hb
      simp only [Obj.key, Keys.ofList, Keys.cons.injEq, Key.num.injEq, Key.ident.injEq, and_true] at h
      obtain ⟨rfl, rfl, rfl⟩ := h
      rw [ha, hb]
    | wrapper real own => unfold Keeps at hb; exact hb.elim
    | _ => simp [Obj.key, Keys.ofList] at h
  | .pixPsf img sm nz, b, ha, hb, h => by
    cases b with
    | list cls' vals' attrs' =>
      unfold Keeps at hb; have hn := notin cls' hb.1
      simp only [Obj.key, Keys.ofList, Keys.cons.injEq, Key.str.injEq] at h; simp [← h.1] at hn
    | multi cls' subs' own' =>
      unfold Keeps at hb; have hn := notin cls' hb.1
      simp only [Obj.key, Keys.ofList, Keys.cons.injEq, Key.str.injEq] at h; simp [← h.1] at hn
    | pixPsf img' sm' nz' =>
      unfold Keeps at ha hb
      simp only [Obj.key, Keys.ofList, Keys.cons.injEq, Key.tup.injEq, true_and, and_true] at h
      rw [flatten_square img img' ha.2.2 hb.2.2 (nums_inj _ _ (ofList_inj _ _ h)), ha.1, hb.1, ha.2.1, hb.2.1]
    | wrapper real own => unfold Keeps at hb; exact hb.elim
    | fitsWcs => simp [Obj.key, Keys.ofList] at h
    | _ => simp [Obj.key, Keys.ofList] at h
  | .psfEx fn ext x0 y0 bs nz, b, ha, hb, h => by
    cases b with
    | list cls' vals' attrs' =>
      unfold Keeps at hb; have hn := notin cls' hb.1
      simp only [Obj.key, Keys.ofList, Keys.cons.injEq, Key.str.injEq] at h; simp [← h.1] at hn
    | multi cls' subs' own' =>
      unfold Keeps at hb; have hn := notin cls' hb.1
      simp only [Obj.key, Keys.ofList, Keys.cons.injEq, Key.str.injEq] at h; simp [← h.1] at hn
    | psfEx fn' ext' x0' y0' bs' nz' =>
      unfold Keeps at ha hb
      obtain ⟨f, rfl, hf⟩ := ha
      obtain ⟨f', rfl, hf'⟩ := hb
      simp only [Obj.key, Keys.ofList, Keys.cons.injEq, Key.str.injEq, Key.ident.injEq, true_and, and_true] at h
      obtain ⟨rfl, rfl⟩ := h
      have := hf.trans hf'.symm
      simp only [Prod.mk.injEq] at this
      obtain ⟨rfl, rfl, rfl, rfl⟩ := this
      rfl
    | wrapper real own => unfold Keeps at hb; exact hb.elim
    | fitsWcs => simp [Obj.key, Keys.ofList] at h
    | _ => simp [Obj.key, Keys.ofList] at h
  | .shiftedPsf x0 y0 p, b, ha, hb, h => by
    cases b with
    | list cls' vals' attrs' =>
      unfold Keeps at hb; have hn := notin cls' hb.1
      simp only [Obj.key, Keys.cons.injEq, Key.str.injEq] at h; simp [← h.1] at hn
    | multi cls' subs' own' =>
      unfold Keeps at hb; have hn := notin cls' hb.1
      simp only [Obj.key, Keys.cons.injEq, Key.str.injEq] at h; simp [← h.1] at hn
    | shiftedPsf x0' y0' p' =>
      unfold Keeps at ha hb
      simp only [Obj.key, Keys.cons.injEq, Key.num.injEq, true_and] at h
      rw [h.1, h.2.1, key_inj one c p p' ha hb h.2.2]
    | wrapper real own => unfold Keeps at hb; exact hb.elim
    | fitsWcs => simp [Obj.key, Keys.ofList] at h
    | _ => simp [Obj.key, Keys.ofList] at h
  | .scaledCal f p, b, ha, hb, h => by
    cases b with
    | list cls' vals' attrs' =>
      unfold Keeps at hb; have hn := notin cls' hb.1
      simp only [Obj.key, Keys.cons.injEq, Key.str.injEq] at h; simp [← h.1] at hn
    | multi cls' subs' own' =>
      unfold Keeps at hb; have hn := notin cls' hb.1
      simp only [Obj.key, Keys.cons.injEq, Key.str.injEq] at h; simp [← h.1] at hn
    | scaledCal f' p' =>
      unfold Keeps at ha hb
      simp only [Obj.key, Keys.cons.injEq, Key.num.injEq, true_and] at h
      rw [h.1, key_inj one c p p' ha hb h.2]
    | wrapper real own => unfold Keeps at hb; exact hb.elim
    | fitsWcs => simp [Obj.key, Keys.ofList] at h
    | _ => simp [Obj.key, Keys.ofList] at h
  | .scaledWcs f p, b, ha, hb, h => by
    cases b with
    | list cls' vals' attrs' =>
      unfold Keeps at hb; have hn := notin cls' hb.1
      simp only [Obj.key, Keys.cons.injEq, Key.str.injEq] at h; simp [← h.1] at hn
    | multi cls' subs' own' =>
      unfold Keeps at hb; have hn := notin cls' hb.1
      simp only [Obj.key, Keys.cons.injEq, Key.str.injEq] at h; simp [← h.1] at hn
    | scaledWcs f' p' =>
      unfold Keeps at ha hb
      simp only [Obj.key, Keys.cons.injEq, Key.num.injEq, true_and] at h
      rw [h.1, key_inj one c p p' ha hb h.2]
    | wrapper real own => unfold Keeps at hb; exact hb.elim
    | fitsWcs => simp [Obj.key, Keys.ofList] at h
    | _ => simp [Obj.key, Keys.ofList] at h
  | .shiftedWcs x0 y0 p, b, ha, hb, h => by
    cases b with
    | list cls' vals' attrs' =>
      unfold Keeps at hb; have hn := notin cls' hb.1
      simp only [Obj.key, Keys.cons.injEq, Key.str.injEq] at h; simp [← h.1] at hn
    | multi cls' subs' own' =>
      unfold Keeps at hb; have hn := notin cls' hb.1
      simp only [Obj.key, Keys.cons.injEq, Key.str.injEq] at h; simp [← h.1] at hn
    | shiftedWcs x0' y0' p' =>
      unfold Keeps at ha hb
      simp only [Obj.key, Keys.cons.injEq, Key.num.injEq, true_and] at h
      rw [h.1, h.2.1, key_inj one c p p' ha hb h.2.2]
    | wrapper real own => unfold Keeps at hb; exact hb.elim
    | fitsWcs => simp [Obj.key, Keys.ofList] at h
    | _ => simp [Obj.key, Keys.ofList] at h
  | .wrapper real own, b, ha, hb, h => by unfold Keeps at ha; exact ha.elim
theorem keys_inj (one : R) (c : Conventions R) : ∀ a b : Objs R, KeepAll one c a → KeepAll one c b → a.keys = b.keys → a = b
  | .nil, b, ha, hb, h => by
    cases b with
    | nil => rfl
    | _ => simp [Objs.keys] at h
  | .cons o l, b, ha, hb, h => by
    cases b with
    | nil => simp [Objs.keys] at h
    | cons o' l' =>
      unfold KeepAll at ha hb
      simp only [Objs.keys, Keys.cons.injEq, Key.tup.injEq] at h
      rw [key_inj one c o o' ha.1 hb.1 h.1, keys_inj one c l l' ha.2 hb.2 h.2]
    | none l' => simp [Objs.keys] at h
  | .none l, b, ha, hb, h => by
    cases b with
    | nil => simp [Objs.keys] at h
    | cons o' l' => simp [Objs.keys] at h
    | none l' =>
      unfold KeepAll at ha hb
      simp only [Objs.keys, Keys.cons.injEq, true_and] at h
      rw [keys_inj one c l l' ha hb h]
end

theorem image_inj (one : R) (c : Conventions R) (shape : Nat → Nat × Nat) (i j : Image R) (hi : KeepsImage one c shape i) (hj : KeepsImage one c shape j)
    (h : i.key = j.key) : i = j := by
  cases i with
  | mk d v H W p s w q =>
    cases j with
    | mk d' v' H' W' p' s' w' q' =>
      obtain ⟨h1, h2, h3, h4, h5⟩ := hi
      obtain ⟨g1, g2, g3, g4, g5⟩ := hj
      simp only [Image.key, Keys.ofList, Keys.cons.injEq, Key.ident.injEq, Key.tup.injEq, true_and, and_true] at h
      obtain ⟨rfl, rfl, e1, e2, e3, e4⟩ := h
      have := h5.trans g5.symm
      simp only [Prod.mk.injEq] at this
      obtain ⟨rfl, rfl⟩ := this
      rw [key_inj one c p p' h1 g1 e1, key_inj one c s s' h2 g2 e2, key_inj one c w w' h3 g3 e3, key_inj one c q q' h4 g4 e4]

/-- Hashes of leaves and of tuples that never collide. -/
structure NoClash (h : Hashing R) : Prop where
  num : Function.Injective h.num
  str : Function.Injective h.str
  ident : Function.Injective h.ident
  tup : Function.Injective h.tup
  num_str : ∀ x s, h.num x ≠ h.str s
  num_none : ∀ x, h.num x ≠ h.none
  num_ident : ∀ x n, h.num x ≠ h.ident n
  num_tup : ∀ x l, h.num x ≠ h.tup l
  str_none : ∀ s, h.str s ≠ h.none
  str_ident : ∀ s n, h.str s ≠ h.ident n
  str_tup : ∀ s l, h.str s ≠ h.tup l
  none_ident : ∀ n, h.none ≠ h.ident n
  none_tup : ∀ l, h.none ≠ h.tup l
  ident_tup : ∀ n l, h.ident n ≠ h.tup l

mutual
theorem hash_inj (h : Hashing R) (c : NoClash h) : ∀ a b : Key R, a.hash h = b.hash h → a = b
  | .str s, b, e => by
    cases b with
    | str s' => simp only [Key.hash] at e; rw [c.str e]
    | num x => simp only [Key.hash] at e; exact absurd e.symm (c.num_str _ _)
    | none => simp only [Key.hash] at e; exact absurd e (c.str_none _)
    | ident n => simp only [Key.hash] at e; exact absurd e (c.str_ident _ _)
    | tup k => simp only [Key.hash] at e; exact absurd e (c.str_tup _ _)
  | .num x, b, e => by
    cases b with
    | str s' => simp only [Key.hash] at e; exact absurd e (c.num_str _ _)
    | num x => simp only [Key.hash] at e; rw [c.num e]
    | none => simp only [Key.hash] at e; exact absurd e (c.num_none _)
    | ident n => simp only [Key.hash] at e; exact absurd e (c.num_ident _ _)
    | tup k => simp only [Key.hash] at e; exact absurd e (c.num_tup _ _)
  | .none, b, e => by
    cases b with
    | str s' => simp only [Key.hash] at e; exact absurd e.symm (c.str_none _)
    | num x => simp only [Key.hash] at e; exact absurd e.symm (c.num_none _)
    | none => rfl
    | ident n => simp only [Key.hash] at e; exact absurd e (c.none_ident _)
    | tup k => simp only [Key.hash] at e; exact absurd e (c.none_tup _)
  | .ident n, b, e => by
    cases b with
    | str s' => simp only [Key.hash] at e; exact absurd e.symm (c.str_ident _ _)
    | num x => simp only [Key.hash] at e; exact absurd e.symm (c.num_ident _ _)
    | none => simp only [Key.hash] at e; exact absurd e.symm (c.none_ident _)
    | ident n => simp only [Key.hash] at e; rw [c.ident e]
    | tup k => simp only [Key.hash] at e; exact absurd e (c.ident_tup _ _)
  | .tup k, b, e => by
    cases b with
    | str s' => simp only [Key.hash] at e; exact absurd e.symm (c.str_tup _ _)
    | num x => simp only [Key.hash] at e; exact absurd e.symm (c.num_tup _ _)
    | none => simp only [Key.hash] at e; exact absurd e.symm (c.none_tup _)
    | ident n => simp only [Key.hash] at e; exact absurd e.symm (c.ident_tup _ _)
    | tup k' => simp only [Key.hash] at e; rw [hashes_inj h c k k' (c.tup e)]
theorem hashes_inj (h : Hashing R) (c : NoClash h) : ∀ a b : Keys R, a.hashes h = b.hashes h → a = b
  | .nil, b, e => by
    cases b with
    | nil => rfl
    | cons k l => simp [Keys.hashes] at e
  | .cons k l, b, e => by
    cases b with
    | nil => simp [Keys.hashes] at e
    | cons k' l' =>
      simp only [Keys.hashes, List.cons.injEq] at e
      rw [hash_inj h c k k' e.1, hashes_inj h c l l' e.2]
end

end Verif.Hashed
